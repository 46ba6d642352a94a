import Verif.Props.FirstFull
/- C21 for concurrent handlers: which handlers can store a signature a second time, and which cannot. -/
set_option autoImplicit false

namespace CTng
variable {L : Lib}

/-- The fragment of a handler that is past the duplicate check and has not stored yet
(gossiper/gossiper_server.go:191-207 and 335-349, after line 182). -/
def Frame.passed : Frame → Option GossipObj
  | .blk g | .fragFull g | .fragStore g => some g
  | _ => none

/-- A handler gets past the duplicate check only by performing it. -/
theorem passed_new (cf : GConf L) (clk : Clock) (s : GState) (f : Frame) (new : List Frame)
    (h : (stepFrame cf clk s f).2 = some new) (f' : Frame) (hf' : f' ∈ new) (g : GossipObj) (hg : f'.passed = some g) :
    f.passed = some g ∨ dupCheck s g = false := by
  have aft : ∀ x b, f' ∉ afterStore x b := by
    intro x b ha
    unfold afterStore at ha
    split at ha <;> (try split at ha) <;> simp at ha <;> (try rcases ha with ha | ha) <;> (try rcases ha with ha | ha) <;>
      (try subst ha) <;> simp [Frame.passed] at hg
  cases f with
  | handle x =>
    simp only [stepFrame, Option.some.injEq] at h; subst h
    split at hf'
    · simp at hf'
    · rename_i hd; simp at hf'; subst hf'
      simp only [Frame.passed, Option.some.injEq] at hg; subst hg
      exact .inr (by simpa using hd)
  | blk x =>
    simp only [stepFrame, Option.some.injEq] at h; subst h
    left
    split at hf'
    · simp at hf'
    · split at hf' <;> simp at hf' <;> subst hf' <;> simp_all [Frame.passed]
  | fragFull x =>
    simp only [stepFrame, Option.some.injEq] at h; subst h
    left
    split at hf'
    · simp at hf'
    · simp at hf'; subst hf'; simpa [Frame.passed] using hg
  | initFrag x =>
    simp only [stepFrame, Option.some.injEq] at h; subst h
    split at hf'
    · simp at hf'
    · split at hf' <;> simp at hf' <;> subst hf' <;> simp [Frame.passed] at hg
  | fragStore x =>
    simp only [stepFrame, Option.some.injEq] at h; subst h
    rcases List.mem_append.1 hf' with h1 | h1 <;> split at h1 <;> simp at h1 <;> subst h1 <;> simp [Frame.passed] at hg
  | recv n x =>
    simp only [stepFrame] at h
    split at h <;> simp at h
    subst h; simp at hf'; subst hf'; simp [Frame.passed] at hg
  | store x =>
    simp only [stepFrame] at h
    split at h
    · cases h
    · simp at h; subst h; exact absurd hf' (aft _ _)
    · split at h
      · simp at h; subst h; exact absurd hf' (aft _ _)
      · simp at h; subst h; simp at hf'; subst hf'; simp [Frame.passed] at hg
  | storeNote x =>
    simp only [stepFrame, Option.some.injEq] at h; subst h; exact absurd hf' (aft _ _)
  | sign x =>
    simp only [stepFrame] at h
    split at h
    · cases h
    · simp at h; subst h; simp at hf'; subst hf'; simp [Frame.passed] at hg
  | fragGen x =>
    simp only [stepFrame] at h
    split at h
    · cases h
    · simp at h; subst h; simp at hf'; subst hf'; simp [Frame.passed] at hg
  | _ =>
    simp only [stepFrame, Option.some.injEq] at h; subst h
    first
      | (simp at hf'; done)
      | (simp at hf'; subst hf'; simp [Frame.passed] at hg; done)
      | (split at hf' <;> simp at hf' <;> subst hf' <;> simp [Frame.passed] at hg)

/-- One action adds to the fragments of a statement only what its frame stores. -/
theorem SStep.frags_new {cf : GConf L} {s : GState} {f : Frame} {s' : Storage} (h : SStep cf s f s') (hf : f ≠ .wipe) (k : GossipID)
    (t : GType) : s'.fragList t k = s.storage.fragList t k ∨
      ∃ g, f = .fragStore g ∧ g.type = t ∧ g.getID = k ∧ s'.fragList t k = s.storage.fragList t k ++ [g] := by
  cases h with
  | same => exact .inl rfl
  | payload n g _ _ _ => left; cases t <;> rfl
  | put g _ ht _ => left; simp
  | frag g ht _ =>
    by_cases e : t = g.type ∧ k = g.getID
    · right
      obtain ⟨e1, e2⟩ := e
      subst e1; subst e2
      exact ⟨g, rfl, rfl, rfl, Storage.fragList_appendFrag_same _ _ _ _ ht⟩
    · left
      exact Storage.fragList_appendFrag_ne _ _ (by by_cases e1 : t = g.type; exact .inr (fun e2 => e ⟨e1, e2⟩); exact .inl e1)
  | wipe => exact absurd rfl hf

/-- No handler is past the duplicate check with this signature for this statement. -/
def NonePassed (k : GossipID) (t : GType) (σ : Sig2) (c : CState) : Prop :=
  ∀ th ∈ c.threads, ∀ f ∈ th.frames, ∀ g, f.passed = some g → g.type = t → g.getID = k → g.sig ≠ σ

theorem frag_once_cstep (cf : GConf L) (c : CState) (hc : CReach cf c) (hw : NoWipe c) (k : GossipID) (t : GType) (ht : t.isFrag = true)
    (σ : Sig2) (hσ : ∃ v ∈ c.g.storage.fragList t k, v.sig = σ) (hn : NonePassed k t σ c) (e : Clock × CEvent)
    (he : e.2 ≠ .periodic) :
    (∃ l, (cstep cf c e).g.storage.fragList t k = c.g.storage.fragList t k ++ l ∧ ∀ v ∈ l, v.sig ≠ σ) ∧
      NonePassed k t σ (cstep cf c e) := by
  obtain ⟨_, _, _, F⟩ := hc.main
  obtain ⟨clk, ev⟩ := e
  have id : ∃ l, c.g.storage.fragList t k = c.g.storage.fragList t k ++ l ∧ ∀ v ∈ l, v.sig ≠ σ := ⟨[], by simp⟩
  have spawn : ∀ (g : GState) (fs : List Frame) (b : Bool), (∀ f ∈ fs, f.passed = none) →
      NonePassed k t σ ⟨g, c.threads ++ [⟨fs, b⟩]⟩ := by
    intro g fs b h th hth f hf x hx
    rcases List.mem_append.1 hth with hth | hth
    · exact hn th hth f hf x hx
    · simp at hth; subst hth
      rw [h f hf] at hx; cases hx
  by_cases hcr : c.g.crashed = true
  · have : cstep cf c (clk, ev) = c := by unfold cstep; rw [if_pos hcr]
    rw [this]; exact ⟨id, hn⟩
  · cases ev with
    | recv n o => unfold cstep; rw [if_neg hcr]; exact ⟨id, spawn _ _ _ (by simp [Frame.passed])⟩
    | notify n o => unfold cstep; rw [if_neg hcr]; exact ⟨id, spawn _ _ _ (by simp [Frame.passed])⟩
    | request n o => unfold cstep; rw [if_neg hcr]; exact ⟨id, spawn _ _ _ (by simp [Frame.passed])⟩
    | periodic => exact absurd rfl he
    | fire i =>
      unfold cstep; rw [if_neg hcr]
      simp only
      split
      · exact ⟨id, hn⟩
      · exact ⟨id, spawn _ _ _ (by simp [Frame.passed])⟩
    | run i =>
      cases hth : c.threads[i]? with
      | none =>
        unfold cstep; rw [if_neg hcr]; simp only [hth]
        exact ⟨id, hn⟩
      | some th =>
        have hthm : th ∈ c.threads := List.mem_of_getElem? hth
        cases hf : th.frames with
        | nil =>
          unfold cstep; rw [if_neg hcr]; simp only [hth, stepThread, hf]
          refine ⟨id, ?_⟩
          intro t' ht'
          rcases List.mem_or_eq_of_mem_set ht' with h1 | h1
          · exact hn t' h1
          · rw [h1]; exact hn th hthm
        | cons f fs =>
          have hfw : f ≠ .wipe := fun e => hw th hthm (by rw [hf, e]; simp)
          have hwt := (F th hthm f (by rw [hf]; simp)).1
          have hs : ∃ l, (stepFrame cf clk c.g f).1.storage.fragList t k = c.g.storage.fragList t k ++ l ∧ ∀ v ∈ l, v.sig ≠ σ := by
            rcases (stepFrame_storage cf clk c.g f hwt).frags_new hfw k t with h | ⟨g, e, h1, h2, h⟩
            · exact ⟨[], by simpa using h⟩
            · refine ⟨[g], h, ?_⟩
              intro v hv
              simp at hv; subst hv
              exact hn th hthm f (by rw [hf]; simp) v (by rw [e]; rfl) h1 h2
          rw [cstep_run cf (by simpa using hcr) hth hf]
          rcases hst : stepFrame cf clk c.g f with ⟨s', new⟩
          rw [hst] at hs
          cases new with
          | some new =>
            refine ⟨hs, ?_⟩
            intro t' ht' f' hf' g hg hgt hgk hgs
            rcases List.mem_or_eq_of_mem_set ht' with h1 | h1
            · exact hn t' h1 f' hf' g hg hgt hgk hgs
            · subst h1
              rcases List.mem_append.1 hf' with h2 | h2
              · rcases passed_new cf clk c.g f new (by rw [hst]) f' h2 g hg with h3 | h3
                · exact hn th hthm f (by rw [hf]; simp) g h3 hgt hgk hgs
                · obtain ⟨v, hv, hvs⟩ := hσ
                  subst hgt; subst hgk
                  have : dupCheck c.g g = true := by
                    have ha : ((c.g.storage.fragList g.type g.getID).any fun v => v.sig = g.sig) = true :=
                      List.any_eq_true.2 ⟨v, hv, by simp [hvs, hgs]⟩
                    unfold dupCheck
                    split <;> simp_all [GType.isFrag]
                  rw [this] at h3; cases h3
              · exact hn th hthm f' (by rw [hf]; simp [h2]) g hg hgt hgk hgs
          | none =>
            refine ⟨?_, ?_⟩
            · dsimp only; split <;> exact hs
            · intro t' ht'
              rcases List.mem_or_eq_of_mem_set ht' with h1 | h1
              · exact hn t' h1
              · subst h1; intro f hf; simp at hf

/-- C21 under every schedule, what holds: a signature that is stored for a statement is stored for it a second time before the next
wipe only by a handler that was already past the duplicate check at that moment. If no such handler is under way, everything stored
for the statement afterwards has another signature, in whatever order the goroutines run and however often the fragment arrives
again. -/
theorem C21_overtaking_only_partial (cf : GConf L) (c : CState) (hc : CReach cf c) (hw : NoWipe c) (k : GossipID) (t : GType)
    (l : List GossipObj) (hl : FragsAt c.g.storage k l t) (v : GossipObj) (hv : v ∈ l)
    (hn : ∀ th ∈ c.threads, ∀ f ∈ th.frames, ∀ g, (f = .blk g ∨ f = .fragFull g ∨ f = .fragStore g) → g.type = t → g.getID = k →
      g.sig ≠ v.sig)
    (h : List (Clock × CEvent)) (hp : ∀ e ∈ h, e.2 ≠ .periodic) :
    ∃ l', FragsAt (crun cf c h).g.storage k (l ++ l') t ∧ ∀ w ∈ l', w.sig ≠ v.sig := by
  have ht : t.isFrag = true := by cases hl <;> rfl
  have key : ∀ (h : List (Clock × CEvent)) (c : CState), CReach cf c → NoWipe c → (∃ w ∈ c.g.storage.fragList t k, w.sig = v.sig) →
      NonePassed k t v.sig c → (∀ e ∈ h, e.2 ≠ .periodic) →
      ∃ l', (crun cf c h).g.storage.fragList t k = c.g.storage.fragList t k ++ l' ∧ ∀ w ∈ l', w.sig ≠ v.sig := by
    intro h
    induction h with
    | nil => exact fun c _ _ _ _ _ => ⟨[], by simp [crun]⟩
    | cons e r ih =>
      intro c hc hw hσ hn hp
      obtain ⟨⟨l1, h1, h1'⟩, h2⟩ := frag_once_cstep cf c hc hw k t ht v.sig hσ hn e (hp e (by simp))
      obtain ⟨_, _, _, F⟩ := hc.main
      have h3 := (grown_cstep cf c (fun t ht f hf => (F t ht f hf).1) hw e (hp e (by simp))).2
      obtain ⟨w, hw1, hw2⟩ := hσ
      obtain ⟨l2, h4, h4'⟩ := ih (cstep cf c e) (hc.step e) h3 ⟨w, by rw [h1]; simp [hw1], hw2⟩ h2 (fun e he => hp e (by simp [he]))
      refine ⟨l1 ++ l2, ?_, ?_⟩
      · show (crun cf (cstep cf c e) r).g.storage.fragList t k = _
        rw [h4, h1, List.append_assoc]
      · intro x hx
        rcases List.mem_append.1 hx with hx | hx
        · exact h1' x hx
        · exact h4' x hx
  have hn' : NonePassed k t v.sig c := by
    intro th hth f hf g hg
    refine hn th hth f hf g ?_
    cases f <;> simp_all [Frame.passed]
  obtain ⟨l', h1, h2⟩ := key h c hc hw ⟨v, by rw [hl.fragList]; exact hv, rfl⟩ hn' hp
  refine ⟨l', ?_, h2⟩
  rw [hl.fragList] at h1
  rw [fragsAt_iff]
  unfold Storage.fragList at h1
  cases hg : ((crun cf c h).g.storage.frags t).get k with
  | none =>
    rw [hg] at h1
    have : l = [] := by simp at h1; exact h1.1
    rw [this] at hv; cases hv
  | some l2 => rw [hg] at h1; simp at h1; rw [h1]

/-- C21: one handler has stored the fragment of G2, another one is about to check the same fragment for a duplicate; the signature
stays the only one of its kind, whatever the schedule and whatever else arrives. -/
example (h : List (Clock × CEvent)) (hp : ∀ e ∈ h, e.2 ≠ .periodic) :
    let c := crun Ref.gconf CState.init ([(Ref.clk, .recv 10 (Ref.frag (go!"G2"))), (Ref.clk, .recv 10 (Ref.frag (go!"G2")))] ++
      List.replicate 2 (Ref.clk, .run 1) ++ List.replicate 20 (Ref.clk, .run 0))
    ∃ l', FragsAt (crun Ref.gconf c h).g.storage (Ref.frag (go!"G2")).getID (Ref.frag (go!"G2") :: l') .STH_FRAG ∧
      ∀ w ∈ l', w.sig ≠ (Ref.frag (go!"G2")).sig := by
  intro c
  have hfr : c.threads.map (·.frames) = [[], [.handle (Ref.frag (go!"G2"))]] := by decide +kernel
  have hall : ∀ th ∈ c.threads, th.frames = [] ∨ th.frames = [.handle (Ref.frag (go!"G2"))] := by
    intro th hth
    have := List.mem_map_of_mem (f := (·.frames)) hth
    rw [hfr] at this
    simpa using this
  refine C21_overtaking_only_partial Ref.gconf c ⟨_, rfl⟩ ?_ _ _ [Ref.frag (go!"G2")] (.sth (by decide +kernel)) _ (by simp) ?_ h hp
  · intro th hth hm
    rcases hall th hth with e | e <;> rw [e] at hm <;> simp at hm
  · intro th hth f hm g hg
    rcases hall th hth with e | e <;> rw [e] at hm <;> simp at hm
    subst hm; simp at hg

end CTng
