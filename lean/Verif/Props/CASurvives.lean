import Verif.Props.CATick
/- A CA keeps running and ends its rounds: C146. -/
set_option autoImplicit false

namespace CTng
variable {L : Lib} {X : XLib} (c : CAConf L) (root : Cert)

theorem rep_poi {s : CAState} (h : Rep s.pool) (p : POI) : Rep (caReceivePOI X p s).pool := by
  unfold caReceivePOI
  simp only
  split
  · split
    · next hu =>
      obtain ⟨l, hl⟩ := h
      obtain ⟨s', h1, h2⟩ := poolOp_spec hl (.update p.subjectKeyId _)
      rw [poolOp] at h1
      rw [h1] at hu
      cases hu
      exact ⟨_, h2⟩
    · exact h
  · exact h

/-- What keeps a CA alive. -/
def CASound (m : CATicks) : Prop := m.dead = false ∧ m.s.crv.WF ∧ Rep m.s.pool

/-- A step of a round succeeds. -/
theorem tickStep_total (hX : X.Laws) {s : CAState} (hw : s.crv.WF) (hp : Rep s.pool) (pub : Nat → Str) (t : Instant) (pos : List Nat)
    (g : TickAt) : ∃ s' new g', tickStep X c root pub t pos s g = some (s', new, g') ∧ s'.crv.WF ∧ Rep s'.pool := by
  cases g with
  | begun => exact ⟨_, _, _, rfl, hw, hp⟩
  | wiped =>
    simp only [tickStep]
    split
    · exact ⟨_, _, _, rfl, hw, hp⟩
    · exact ⟨_, _, _, rfl, hw, hp⟩
  | rid pub' off certs => exact ⟨_, _, _, rfl, hw, hp⟩
  | bump pub' off rid certs => exact ⟨_, _, _, rfl, hw, hp⟩
  | add certs k =>
    simp only [tickStep]
    split
    · exact ⟨_, _, _, rfl, hw, hp⟩
    · exact ⟨_, _, _, rfl, hw, (addAll_one hp _).2⟩
  | post certs k => exact ⟨_, _, _, rfl, hw, hp⟩
  | armed certs =>
    obtain ⟨s', hs⟩ := endRound_total c hX hw t pos
    simp only [tickStep, hs, Option.map_some]
    refine ⟨_, _, _, rfl, ?_, hp⟩
    obtain ⟨_, _, _, _, rfl⟩ := endRound_some X c hs
    exact ⟨(round_wf hw pos).1, by intro b hb; simp [CRV.closePeriod] at hb⟩
  | reset certs => exact ⟨_, _, _, rfl, hw, rep_new⟩
  | done certs => exact ⟨_, _, _, rfl, hw, hp⟩

theorem sound_step (hX : X.Laws) {m : CATicks} (h : CASound m) (e : CATickEvent) : CASound (caTickStep X c root m e) := by
  obtain ⟨hd, hw, hp⟩ := h
  have hd' : ¬ m.dead = true := by rw [hd]; decide
  cases e with
  | tick => unfold caTickStep; rw [if_neg hd']; exact ⟨hd, hw, hp⟩
  | run k pub t pos =>
    cases hk : m.gs[k]? with
    | none => unfold caTickStep; rw [if_neg hd']; simp only [hk]; exact ⟨hd, hw, hp⟩
    | some g =>
      obtain ⟨s', new, g', hs, h1, h2⟩ := tickStep_total c root hX hw hp pub t pos g
      rw [caTickStep_run c root hd hk hs]
      exact ⟨rfl, h1, h2⟩
  | sth g =>
    unfold caTickStep; rw [if_neg hd']
    obtain ⟨n, hn⟩ := sth_frame c g m.s
    simp only [hn]
    exact ⟨hd, hw, hp⟩
  | poi p =>
    unfold caTickStep; rw [if_neg hd']
    refine ⟨hd, ?_, rep_poi hp p⟩
    obtain ⟨n, hn⟩ := poi_frame X p m.s
    simp only [hn]
    exact hw
  | request t =>
    unfold caTickStep; rw [if_neg hd']
    obtain ⟨n, hn⟩ := request_frame c t m.s
    simp only [hn]
    exact ⟨hd, hw, hp⟩
  | revoke i =>
    unfold caTickStep; rw [if_neg hd']
    exact ⟨hd, ⟨BitSet.wf_set hw.1 i, hw.2⟩, hp⟩

theorem sound_run (hX : X.Laws) (h : List CATickEvent) {m : CATicks} (hs : CASound m) : CASound (caTickRun X c root m h) := by
  induction h generalizing m with
  | nil => exact hs
  | cons e t ih => rw [caTickRun_cons]; exact ih (sound_step c root hX hs e)

/-- Steps a round still has to take, with `N` certificates per period. -/
def stepsLeft (N : Nat) : TickAt → Nat
  | .begun => 4 * N + 4
  | .wiped => 4 * N + 3
  | .rid _ _ certs => 2 * (N - certs.length) + 2 * N + 2
  | .bump _ _ _ certs => 2 * (N - certs.length) + 2 * N + 1
  | .add certs k => 2 * (certs.length - k) + 2
  | .post certs k => 2 * (certs.length - k) + 1
  | .armed _ => 2
  | .reset _ => 1
  | .done _ => 0

/-- The loops are within their bounds. -/
def InLoops (N : Nat) : TickAt → Prop
  | .rid _ _ certs => certs.length < N
  | .bump _ _ _ certs => certs.length < N
  | .add certs k => k < certs.length ∧ certs.length ≤ N
  | .post certs k => k < certs.length ∧ certs.length ≤ N
  | _ => True

theorem stepsLeft_step {pub : Nat → Str} {t : Instant} {pos : List Nat} {s s' : CAState} {g g' : TickAt} {new : List Cert}
    (hg : InLoops c.certPerPeriod g) (h : tickStep X c root pub t pos s g = some (s', new, g')) :
    InLoops c.certPerPeriod g' ∧ stepsLeft c.certPerPeriod g' ≤ stepsLeft c.certPerPeriod g - 1 := by
  cases g with
  | begun => cases h; exact ⟨trivial, by simp only [stepsLeft]; omega⟩
  | wiped =>
    simp only [tickStep] at h
    split at h
    · next hn => cases h; exact ⟨hn, by simp only [stepsLeft, List.length_nil]; omega⟩
    · cases h; exact ⟨trivial, by simp only [stepsLeft]; omega⟩
  | rid pub' off certs => cases h; exact ⟨hg, by simp only [stepsLeft]; omega⟩
  | bump pub' off rid certs =>
    cases h
    simp only [InLoops] at hg
    simp only [nextMade, List.length_append, List.length_singleton]
    split
    · next hn => exact ⟨by simpa [InLoops] using hn, by simp only [stepsLeft, List.length_append, List.length_singleton]; omega⟩
    · next hn =>
      exact ⟨by simp only [InLoops, List.length_append, List.length_singleton]; omega, by simp only [stepsLeft, List.length_append, List.length_singleton]; omega⟩
  | add certs k =>
    simp only [InLoops] at hg
    simp only [tickStep, List.getElem?_eq_getElem hg.1] at h
    cases h
    exact ⟨hg, by simp only [stepsLeft]; omega⟩
  | post certs k =>
    cases h
    simp only [InLoops] at hg
    simp only [nextAdd]
    split
    · next hn => exact ⟨⟨hn, hg.2⟩, by simp only [stepsLeft]; omega⟩
    · exact ⟨trivial, by simp only [stepsLeft]; omega⟩
  | armed certs =>
    simp only [tickStep, Option.map_eq_some_iff] at h
    obtain ⟨_, _, h⟩ := h
    cases h
    exact ⟨trivial, by simp only [stepsLeft]; omega⟩
  | reset certs => cases h; exact ⟨trivial, by simp only [stepsLeft]; omega⟩
  | done certs => cases h; exact ⟨trivial, by simp only [stepsLeft]; omega⟩

/-- How many of the events are steps of round `k`. -/
def ownSteps (k : Nat) (h : List CATickEvent) : Nat := h.countP fun | .run j _ _ _ => j = k | _ => false

theorem tickRound_run (hX : X.Laws) (k : Nat) (h : List CATickEvent) : ∀ (m : CATicks) (g : TickAt), CASound m → m.gs[k]? = some g →
    InLoops c.certPerPeriod g →
    ∃ g', (caTickRun X c root m h).gs[k]? = some g' ∧ InLoops c.certPerPeriod g' ∧
      stepsLeft c.certPerPeriod g' ≤ stepsLeft c.certPerPeriod g - ownSteps k h := by
  induction h with
  | nil => intro m g _ hk hg; exact ⟨g, hk, hg, by simp [ownSteps]⟩
  | cons e r ih =>
    intro m g hs hk hg
    rw [caTickRun_cons]
    have hs' := sound_step c root hX hs e
    have hc : ownSteps k (e :: r) = ownSteps k [e] + ownSteps k r := by
      rw [ownSteps, show e :: r = [e] ++ r from rfl, List.countP_append]; rfl
    have keep : (caTickStep X c root m e).gs[k]? = some g → ownSteps k [e] = 0 →
        ∃ g', (caTickRun X c root (caTickStep X c root m e) r).gs[k]? = some g' ∧ InLoops c.certPerPeriod g' ∧
          stepsLeft c.certPerPeriod g' ≤ stepsLeft c.certPerPeriod g - ownSteps k (e :: r) := by
      intro h1 h2
      obtain ⟨g', h3, h4, h5⟩ := ih _ g hs' h1 hg
      exact ⟨g', h3, h4, by rw [hc, h2]; omega⟩
    have hd' : ¬ m.dead = true := by rw [hs.1]; decide
    cases e with
    | tick =>
      refine keep ?_ rfl
      unfold caTickStep
      rw [if_neg hd']
      simp only
      rw [List.getElem?_append_left (List.getElem?_eq_some_iff.1 hk).1]
      exact hk
    | run j pub t pos =>
      by_cases hj : j = k
      · subst hj
        obtain ⟨s', new, g', h1, _⟩ := tickStep_total c root hX hs.2.1 hs.2.2 pub t pos g
        obtain ⟨h2, h3⟩ := stepsLeft_step c root hg h1
        rw [caTickStep_run c root hs.1 hk h1] at hs' ⊢
        obtain ⟨g2, h4, h5, h6⟩ := ih _ g' hs' (tick_set_get hk) h2
        refine ⟨g2, h4, h5, ?_⟩
        have : ownSteps j [CATickEvent.run j pub t pos] = 1 := by simp [ownSteps]
        rw [hc, this]
        omega
      · refine keep ?_ (by simp [ownSteps, hj])
        unfold caTickStep
        rw [if_neg hd']
        simp only
        split
        · exact hk
        · split
          · exact hk
          · simp only
            rw [List.getElem?_set_ne hj]
            exact hk
    | sth g => exact keep (by unfold caTickStep; rw [if_neg hd']; exact hk) rfl
    | poi p => exact keep (by unfold caTickStep; rw [if_neg hd']; exact hk) rfl
    | request t => exact keep (by unfold caTickStep; rw [if_neg hd']; exact hk) rfl
    | revoke i => exact keep (by unfold caTickStep; rw [if_neg hd']; exact hk) rfl

theorem stepsLeft_le {N : Nat} {g : TickAt} (h : InLoops N g) : stepsLeft N g ≤ 4 * N + 4 := by
  cases g <;> simp only [InLoops] at h <;> simp only [stepsLeft] <;> omega

theorem inLoops_step (hX : X.Laws) {m : CATicks} (hs : CASound m)
    (h : ∀ (k : Nat) g, m.gs[k]? = some g → InLoops c.certPerPeriod g) (e : CATickEvent) :
    ∀ (k : Nat) g, (caTickStep X c root m e).gs[k]? = some g → InLoops c.certPerPeriod g := by
  have hd' : ¬ m.dead = true := by rw [hs.1]; decide
  cases e with
  | tick =>
    intro k g hk
    unfold caTickStep at hk
    rw [if_neg hd'] at hk
    simp only [List.getElem?_append, List.getElem?_singleton] at hk
    split at hk
    · exact h k g hk
    · split at hk
      · cases hk; trivial
      · cases hk
  | run j pub t pos =>
    intro k g hk
    cases hj : m.gs[j]? with
    | none => unfold caTickStep at hk; rw [if_neg hd'] at hk; simp only [hj] at hk; exact h k g hk
    | some g0 =>
      obtain ⟨s', new, g', h1, _⟩ := tickStep_total c root hX hs.2.1 hs.2.2 pub t pos g0
      rw [caTickStep_run c root hs.1 hj h1] at hk
      simp only [List.getElem?_set] at hk
      split at hk
      · split at hk
        · cases hk; exact (stepsLeft_step c root (h j g0 hj) h1).1
        · cases hk
      · exact h k g hk
  | sth g => unfold caTickStep; rw [if_neg hd']; exact h
  | poi p => unfold caTickStep; rw [if_neg hd']; exact h
  | request t => unfold caTickStep; rw [if_neg hd']; exact h
  | revoke i => unfold caTickStep; rw [if_neg hd']; exact h

theorem inLoops_run (hX : X.Laws) (h : List CATickEvent) {m : CATicks} (hs : CASound m)
    (hm : ∀ (k : Nat) g, m.gs[k]? = some g → InLoops c.certPerPeriod g) :
    ∀ (k : Nat) g, (caTickRun X c root m h).gs[k]? = some g → InLoops c.certPerPeriod g := by
  induction h generalizing m with
  | nil => exact hm
  | cons e r ih => rw [caTickRun_cons]; exact ih (sound_step c root hX hs e) (inLoops_step c root hX hs hm e)

/-- C146: no step of a round of a CA panics, in whatever order rounds, messages and requests run, nor does adding a certificate to its
pool (data races aside, see C129). A round that has begun is over after `4 N + 4` of its own steps, `N` being the certificates per period,
whatever happens between them. -/
theorem C146_ca_survives (hX : X.Laws) (sha : Str → Str) (signer key : Str) (h h' : List CATickEvent) :
    let m := caTickRun X c root (.init (initCA X sha signer key).2) h
    m.dead = false ∧ (∀ x, ∃ p, m.s.pool.addCert x = .ok p) ∧
    ∀ k, k < m.gs.length → 4 * c.certPerPeriod + 4 ≤ ownSteps k h' →
      ∃ certs, (caTickRun X c root m h').gs[k]? = some (.done certs) := by
  have h0 : CASound (.init (initCA X sha signer key).2) := ⟨rfl, initCA_wf (X := X) sha signer key, rep_new⟩
  have hs := sound_run c root hX h h0
  refine ⟨hs.1, fun x => ⟨_, (addAll_one hs.2.2 x).1⟩, ?_⟩
  intro k hk hn
  have h1 := inLoops_run c root hX h h0 (by intro k g hk; simp [CATicks.init] at hk) k _ (List.getElem?_eq_getElem hk)
  have h2 := stepsLeft_le h1
  obtain ⟨g', h3, _, h4⟩ := tickRound_run c root hX k h' _ _ hs (List.getElem?_eq_getElem hk) h1
  have : stepsLeft c.certPerPeriod g' = 0 := by omega
  cases g' <;> simp only [stepsLeft] at this <;> first | omega | exact ⟨_, h3⟩

namespace Ref

/-- Two rounds step by step in turn, with a revocation, a proof and a request between. -/
def inTurn : List CATickEvent :=
  (List.range 12).flatMap fun _ => [.run 0 (leafKey 0) at58 [9], .revoke 3, .run 1 (leafKey 1) at58 [], .request at58]

/-- C146: both rounds are over. -/
example : ∃ certs certs', (caTickRun xlib caConf caRoot (caTickRun xlib caConf caRoot tick0 [.tick, .tick]) inTurn).gs[0]? =
      some (.done certs) ∧
    (caTickRun xlib caConf caRoot (caTickRun xlib caConf caRoot tick0 [.tick, .tick]) inTurn).gs[1]? = some (.done certs') := by
  obtain ⟨_, _, h⟩ := C146_ca_survives caConf caRoot xlaws lib.sha256 (go!"C1") (go!"rootkey") [.tick, .tick] inTurn
  obtain ⟨c0, h0⟩ := h 0 (by decide +kernel) (by decide +kernel)
  obtain ⟨c1, h1⟩ := h 1 (by decide +kernel) (by decide +kernel)
  exact ⟨c0, c1, h0, h1⟩

end Ref
end CTng
