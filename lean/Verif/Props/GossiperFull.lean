import Verif.Proofs.GossiperFull
import Verif.Props.GossiperConc
/- C14: how often fragments are aggregated into a FULL object. -/
set_option autoImplicit false

namespace CTng
variable {L : Lib}

/-- How often the gossiper has aggregated fragments of the statement `k` (its "Generated full object" log lines). -/
def aggregations (s : GState) (k : GossipID) : Nat :=
  (s.out.filter fun o => match o with | .generatedFull k' _ => k' = k | _ => false).length

/-- Number of fragments kept for the statement `k`. -/
def kept (s : GState) (k : GossipID) : Nat :=
  match k.type with
  | .STH_FRAG => ((s.storage.sthFrag.get k).getD []).length
  | .REV_FRAG => ((s.storage.revFrag.get k).getD []).length
  | .ACC_FRAG => ((s.storage.accFrag.get k).getD []).length
  | _ => 0

/-- No goroutine is in the middle of aggregating for `k` or about to wipe the storage. -/
def Calm (c : CState) (k : GossipID) : Prop :=
  ∀ t ∈ c.threads, ∀ f ∈ t.frames, f ≠ .wipe ∧ ∀ g, f = .fragGen g → g.getID ≠ k

theorem aggregations_eq (s : GState) (k : GossipID) : aggregations s k = fullCount k s := by
  unfold aggregations fullCount
  rw [List.countP_eq_length_filter]
  congr 2

theorem kept_eq (s : GState) (k : GossipID) : kept s k = (s.storage.fragList k.type k).length := by
  unfold kept Storage.fragList
  cases k.type <;> simp [Storage.frags]

theorem Calm.pending {c : CState} {k : GossipID} (h : Calm c k) : genPending k c = 0 := by
  unfold genPending
  have : (c.threads.map fun t => t.frames.countP (Frame.isGen k)) = c.threads.map fun _ => 0 := by
    apply List.map_congr_left
    intro t ht
    rw [List.countP_eq_zero]
    intro f hf hg
    unfold Frame.isGen at hg
    split at hg
    · rename_i g
      exact (h t ht _ hf).2 g rfl (by simpa using hg)
    · cases hg
  rw [this]
  generalize c.threads = l
  induction l with
  | nil => rfl
  | cons a t ih => simpa using ih

theorem Calm.inv {cf : GConf L} {c : CState} {k : GossipID} (hc : CReach cf c) (h : Calm c k) (ex : Bool) :
    FullInv cf k ex (aggregations c.g k + credit cf k c.g) c := by
  obtain ⟨hh, _, H, F⟩ := hc.main
  have hp := h.pending
  refine ⟨fun t ht f hf => (F t ht f hf).1, fun g hg => (H.timers g hg).1, fun t ht hf => (h t ht _ hf).1 rfl, ?_, ?_, ?_, ?_⟩
  · rw [hp, aggregations_eq]; omega
  · intro _ t ht
    have := genPending_le k ht
    rw [hp] at this
    have h0 : t.frames.countP (Frame.isGen k) = 0 := by omega
    exact Nat.le_zero.1 (h0 ▸ List.Sublist.countP_le (List.tail_sublist _))
  · intro _ h0; omega
  · intro _; rw [hp, aggregations_eq]; omega

theorem FullInv.run {cf : GConf L} {k : GossipID} {ex : Bool} {n0 : Nat} {c : CState}
    (hb : ex = true → cf.crypto.thresholdScheme = go!"bls") (H : FullInv cf k ex n0 c)
    (es : List (Clock × CEvent)) (hes : ∀ e ∈ es, e.2 ≠ .periodic) : FullInv cf k ex n0 (crun cf c es) := by
  induction es generalizing c with
  | nil => exact H
  | cons e t ih => exact ih (H.step cf k hb e (hes e (by simp))) (fun e he => hes e (by simp [he]))

theorem out_cstep (cf : GConf L) (c : CState) (e : Clock × CEvent) : ∃ o, (cstep cf c e).g.out = c.g.out ++ o := by
  have same : ∃ o, c.g.out = c.g.out ++ o := ⟨[], by simp⟩
  obtain ⟨clk, ev⟩ := e
  unfold cstep
  split
  · exact same
  · cases ev with
    | fire i => simp only; split <;> exact same
    | run i =>
      simp only
      split
      · exact same
      · rename_i t _
        simp only [stepThread]
        split
        · exact same
        · rename_i f fs _
          obtain ⟨o, _, ho⟩ := stepFrame_out cf clk c.g f
          rcases hst : stepFrame cf clk c.g f with ⟨s', new⟩
          rw [hst] at ho
          cases new with
          | some new => exact ⟨o, ho⟩
          | none => simp only; split <;> exact ⟨o, ho⟩
    | _ => exact same

theorem out_crun (cf : GConf L) (c : CState) (es : List (Clock × CEvent)) :
    ∃ o, (crun cf c es).g.out = c.g.out ++ o := by
  induction es generalizing c with
  | nil => exact ⟨[], by simp [crun]⟩
  | cons e t ih =>
    obtain ⟨o, ho⟩ := out_cstep cf c e
    obtain ⟨o', ho'⟩ := ih (cstep cf c e)
    exact ⟨o ++ o', by rw [← List.append_assoc, ← ho]; exact ho'⟩

/-- C14, what holds under every schedule: from a moment at which no goroutine is aggregating for the statement or wiping,
until the next wipe is started, at most one aggregation for the statement happens. Missing: intervals that begin with an
aggregation in progress, see `C14_violated_aggregation_across_wipe`. -/
theorem C14_at_most_once_partial (cf : GConf L) (c : CState) (hc : CReach cf c) (k : GossipID) (hcalm : Calm c k)
    (es : List (Clock × CEvent)) (hes : ∀ e ∈ es, e.2 ≠ .periodic) :
    aggregations (crun cf c es).g k ≤ aggregations c.g k + 1 := by
  have := ((hcalm.inv hc false).run (by simp) es hes).bound
  rw [aggregations_eq]
  unfold credit at this
  split at this <;> split at this <;> omega

/-- C14. The aggregation happens exactly when the Threshold-th fragment is kept: with the BLS scheme, once no goroutine is
aggregating any more, there was one more aggregation if the number of kept fragments has risen to the threshold, and none
otherwise. -/
theorem C14_exactly_at_threshold_partial (cf : GConf L) (hb : cf.crypto.thresholdScheme = go!"bls") (c : CState)
    (hc : CReach cf c) (k : GossipID) (hcalm : Calm c k) (es : List (Clock × CEvent))
    (hes : ∀ e ∈ es, e.2 ≠ .periodic) (hcalm' : Calm (crun cf c es) k) :
    aggregations (crun cf c es).g k = aggregations c.g k +
      if (kept c.g k : Int) < cf.crypto.threshold ∧ cf.crypto.threshold ≤ (kept (crun cf c es).g k : Int) then 1 else 0 := by
  have H := (hcalm.inv hc true).run (fun _ => hb) es hes
  have h1 := H.bound
  have h2 := H.exact rfl
  rw [hcalm'.pending] at h1 h2
  have h3 : fullCount k c.g ≤ fullCount k (crun cf c es).g := by
    obtain ⟨o, ho⟩ := out_crun cf c es
    unfold fullCount; rw [ho, List.countP_append]; omega
  rw [aggregations_eq (crun cf c es).g, kept_eq, kept_eq]
  rw [← aggregations_eq] at h3
  unfold credit at h1 h2
  split at h1 <;> split at h1 <;> split <;> simp_all <;> omega

/-- C14, sequential: between two wipes at most one aggregation per statement, with no condition on the starting state. -/
theorem C14_sequential_at_most_once (cf : GConf L) (s : GState) (hs : GReach cf s) (k : GossipID)
    (h : List (Clock × GOp)) (hh : ∀ e ∈ h, e.2 ≠ .periodic) :
    aggregations (grun cf s h) k ≤ aggregations s k + 1 := by
  obtain ⟨c, hc, rfl, hi⟩ := hs.toConc
  obtain ⟨es, h1, _, h3⟩ := grun_conc cf h c hi
  rw [← h1]
  exact C14_at_most_once_partial cf c hc k (fun t ht f hf => by rw [hi t ht] at hf; simp at hf) es (h3 hh)

/-- C14, sequential: the aggregation takes place exactly when the Threshold-th fragment is kept. -/
theorem C14_sequential_exactly_at_threshold (cf : GConf L) (hb : cf.crypto.thresholdScheme = go!"bls") (s : GState)
    (hs : GReach cf s) (k : GossipID) (h : List (Clock × GOp)) (hh : ∀ e ∈ h, e.2 ≠ .periodic) :
    aggregations (grun cf s h) k = aggregations s k +
      if (kept s k : Int) < cf.crypto.threshold ∧ cf.crypto.threshold ≤ (kept (grun cf s h) k : Int) then 1 else 0 := by
  obtain ⟨c, hc, rfl, hi⟩ := hs.toConc
  obtain ⟨es, h1, h2, h3⟩ := grun_conc cf h c hi
  rw [← h1]
  exact C14_exactly_at_threshold_partial cf hb c hc k (fun t ht f hf => by rw [hi t ht] at hf; simp at hf) es (h3 hh)
    (fun t ht f hf => by rw [h2 t ht] at hf; simp at hf)

/-- Three concurrent fragments, threshold 2: one aggregation. -/
example : Calm CState.init (Ref.frag (go!"G1")).getID ∧ (∀ e ∈ Ref.fragSchedule, e.2 ≠ .periodic) ∧
    aggregations (crun Ref.gconf CState.init Ref.fragSchedule).g (Ref.frag (go!"G1")).getID = 1 :=
  ⟨by intro t ht; simp [CState.init] at ht, by decide +kernel, by decide +kernel⟩

/-- Two fragments of old traffic; the goroutine about to aggregate is overtaken by a wipe and by a second delivery of the
same fragments. -/
def Ref.wipeRace : List (Clock × CEvent) :=
  [(Ref.clk, .recv 10 (Ref.frag (go!"G1"))), (Ref.clk, .recv 10 (Ref.frag (go!"G2")))] ++ runs Ref.clk 0 20 ++
    runs Ref.clk 1 6 ++ [(Ref.clk, .periodic)]

/-- The wipe and what follows it. -/
def Ref.afterWipe : List (Clock × CEvent) :=
  [(Ref.clk, .recv 10 (Ref.frag (go!"G1"))), (Ref.clk, .recv 10 (Ref.frag (go!"G2")))] ++ runs Ref.clk 3 20 ++
    runs Ref.clk 4 6 ++ runs Ref.clk 1 1 ++ runs Ref.clk 4 1

/-- C14 does not hold for arbitrary schedules: an aggregation that is in progress when the storage is wiped can complete
after the wipe, next to the regular one, so that two aggregations for one statement happen between two wipes. -/
theorem C14_violated_aggregation_across_wipe :
    ∃ c : CState, CReach Ref.gconf c ∧ c.g.storage = Storage.init ∧ aggregations c.g (Ref.frag (go!"G1")).getID = 0 ∧
      (∀ e ∈ Ref.afterWipe, e.2 ≠ .periodic) ∧
      aggregations (crun Ref.gconf c Ref.afterWipe).g (Ref.frag (go!"G1")).getID = 2 :=
  ⟨crun Ref.gconf CState.init (Ref.wipeRace ++ runs Ref.clk 2 2), ⟨_, rfl⟩, by decide +kernel, by decide +kernel,
    by decide +kernel, by decide +kernel⟩

end CTng
