import Verif.Proofs.GossiperRefine
/- Invariants of the concurrent gossiper. -/
set_option autoImplicit false

namespace CTng
variable {L : Lib} (cf : GConf L)

abbrev History := List (Clock × CEvent)

/-- State after a history. -/
def stateOf (h : History) : CState := crun cf CState.init h

theorem stateOf_snoc (h : History) (e : Clock × CEvent) : stateOf cf (h ++ [e]) = cstep cf (stateOf cf h) e := by
  simp [stateOf, crun]

/-- Invariants over histories: `Q` about the shared state, `F` about each pending program point. -/
structure HInv (Q : History → GState → Prop) (F : History → GState → Frame → Prop) : Prop where
  init : Q [] GState.init
  step : ∀ h clk i s f, stateOf cf h = s → s.g.crashed = false → Q h s.g → F h s.g f →
    (∃ t, s.threads[i]? = some t ∧ t.frames.head? = some f) →
    let r := stepFrame cf clk s.g f
    let h' := h ++ [(clk, .run i)]
    Q h' r.1 ∧ (∀ f', F h s.g f' → F h' r.1 f') ∧ ∀ new, r.2 = some new → ∀ f' ∈ new, F h' r.1 f'
  crash : ∀ h s, Q h s → Q h { s with crashed := true } ∧ ∀ f, F h s f → F h { s with crashed := true } f
  /-- events that do not touch the shared state -/
  idle : ∀ h e s, Q h s → Q (h ++ [e]) s ∧ ∀ f, F h s f → F (h ++ [e]) s f
  spawnRecv : ∀ h clk n o s, Q (h ++ [(clk, .recv n o)]) s → F (h ++ [(clk, .recv n o)]) s (.recv n o)
  spawn : ∀ h s, Q h s → (∀ n x, F h s (.notify n x)) ∧ (∀ n x, F h s (.request n x)) ∧ F h s .save ∧ F h s .wipe
  fire : ∀ h s i o, Q h s → s.timers[i]? = some o →
    Q h { s with timers := s.timers.eraseIdx i } ∧ F h { s with timers := s.timers.eraseIdx i } (.signBlk o) ∧
    ∀ f, F h s f → F h { s with timers := s.timers.eraseIdx i } f

def Holds (Q : History → GState → Prop) (F : History → GState → Frame → Prop) (h : History) : Prop :=
  Q h (stateOf cf h).g ∧ ∀ t ∈ (stateOf cf h).threads, ∀ f ∈ t.frames, F h (stateOf cf h).g f

theorem HInv.holds {Q : History → GState → Prop} {F : History → GState → Frame → Prop} (H : HInv cf Q F)
    (h : History) : Holds cf Q F h := by
  have key : ∀ k : Nat, ∀ h : History, h.length = k → Holds cf Q F h := by
    intro k
    induction k with
    | zero =>
      intro h hk
      have : h = [] := List.eq_nil_of_length_eq_zero hk
      subst this
      refine ⟨H.init, ?_⟩
      intro t ht
      simp [stateOf, crun, CState.init] at ht
    | succ k ih =>
      intro h' hk
      have hne : h' ≠ [] := by intro e; subst e; simp at hk
      obtain ⟨h, e, rfl⟩ : ∃ h e, h' = h ++ [e] := ⟨h'.dropLast, h'.getLast hne, (List.dropLast_concat_getLast hne).symm⟩
      obtain ⟨hq, hf⟩ := ih h (by simpa using hk)
      unfold Holds
      rw [stateOf_snoc]
      generalize hc : stateOf cf h = c at *
      obtain ⟨hq1, hf1⟩ := H.idle h e c.g hq
      have spawnCase : ∀ fs fatal, (∀ f ∈ fs, F (h ++ [e]) c.g f) →
          Q (h ++ [e]) c.g ∧ ∀ t ∈ (c.threads ++ [(⟨fs, fatal⟩ : Thread)]), ∀ f ∈ t.frames, F (h ++ [e]) c.g f := by
        intro fs fatal hfs
        refine ⟨hq1, ?_⟩
        intro t ht f hft
        rcases List.mem_append.1 ht with ht | ht
        · exact hf1 f (hf t ht f hft)
        · simp at ht; subst ht; exact hfs f hft
      obtain ⟨s2, s3, s4, s5⟩ := H.spawn (h ++ [e]) c.g hq1
      obtain ⟨clk, ev⟩ := e
      unfold cstep
      split
      · exact ⟨hq1, fun t ht f hft => hf1 f (hf t ht f hft)⟩
      · rename_i hncr
        cases ev with
        | recv n o => exact spawnCase _ _ (by intro f hf'; simp at hf'; subst hf'; exact H.spawnRecv h clk n o c.g hq1)
        | notify n o => exact spawnCase _ _ (by intro f hf'; simp at hf'; subst hf'; exact s2 n o)
        | request n o => exact spawnCase _ _ (by intro f hf'; simp at hf'; subst hf'; exact s3 n o)
        | periodic =>
          exact spawnCase _ _ (by intro f hf'; simp at hf'; rcases hf' with rfl | rfl <;> assumption)
        | fire i =>
          simp only
          cases ht : c.g.timers[i]? with
          | none => exact ⟨hq1, fun t ht f hft => hf1 f (hf t ht f hft)⟩
          | some o =>
            obtain ⟨a1, a2, a3⟩ := H.fire _ c.g i o hq1 ht
            refine ⟨a1, ?_⟩
            intro t ht f hft
            rcases List.mem_append.1 ht with ht | ht
            · exact a3 f (hf1 f (hf t ht f hft))
            · simp at ht; subst ht; simp at hft; subst hft; exact a2
        | run i =>
          simp only
          cases ht : c.threads[i]? with
          | none => exact ⟨hq1, fun t ht f hft => hf1 f (hf t ht f hft)⟩
          | some t =>
            have htm : t ∈ c.threads := List.mem_of_getElem? ht
            simp only [stepThread]
            cases hfr : t.frames with
            | nil =>
              refine ⟨hq1, ?_⟩
              intro t' ht' f hft'
              rcases List.mem_or_eq_of_mem_set ht' with h1 | h1
              · exact hf1 f (hf t' h1 f hft')
              · subst h1; rw [hfr] at hft'; simp at hft'
            | cons f fs =>
              obtain ⟨b1, b2, b3⟩ := H.step h clk i c f hc (by simpa using hncr) hq (hf t htm f (by rw [hfr]; simp)) ⟨t, ht, by rw [hfr]; rfl⟩
              simp only
              rcases hst : stepFrame cf clk c.g f with ⟨s', new⟩
              rw [hst] at b1 b2 b3
              cases new with
              | some new =>
                refine ⟨b1, ?_⟩
                intro t' ht' f' hft'
                rcases List.mem_or_eq_of_mem_set ht' with h1 | h1
                · exact b2 f' (hf t' h1 f' hft')
                · subst h1
                  rcases List.mem_append.1 hft' with h2 | h2
                  · exact b3 new rfl f' h2
                  · exact b2 f' (hf t htm f' (by rw [hfr]; simp [h2]))
              | none =>
                have hcr := H.crash _ s' b1
                simp only
                split
                · refine ⟨hcr.1, ?_⟩
                  intro t' ht' f' hft'
                  rcases List.mem_or_eq_of_mem_set ht' with h1 | h1
                  · exact hcr.2 f' (b2 f' (hf t' h1 f' hft'))
                  · subst h1; simp at hft'
                · refine ⟨b1, ?_⟩
                  intro t' ht' f' hft'
                  rcases List.mem_or_eq_of_mem_set ht' with h1 | h1
                  · exact b2 f' (hf t' h1 f' hft')
                  · subst h1; simp at hft'
  exact key h.length h rfl

end CTng
