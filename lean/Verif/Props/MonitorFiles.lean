import Verif.Proofs.WireMonitor
import Verif.Props.Util
import Verif.Props.Monitor
import Verif.Proofs.Itoa
/- C98: the directories of the client updates; C99: loading a stored list. -/
set_option autoImplicit false

namespace CTng

open Mon

variable {L : Lib} (X : XLib) (c : MonConf L)

/-! ### C98: one directory per period -/

/-- The clock of a monitor at an instant. -/
def ClockAt (t : Instant) (clk : Clock) : Prop := clk.period = getCurrentPeriod t

theorem periodIO_at {t0 t : Instant} {clk : Clock} (h0 : c.periodOffset = getCurrentPeriod t0) (h : ClockAt t clk) :
    periodIO c clk = itoaInt ((t.minute : Int) - (t0.minute : Int)) := by
  have := t.minute_lt
  have := t0.minute_lt
  rw [periodIO, h0, h, period_eq_padInt, period_eq_padInt, atoi_padInt_two _ (by omega), atoi_padInt_two _ (by omega)]
  rfl

theorem itoa_no_minus (n : Nat) : ∀ x ∈ itoa n, x ≠ 45 := by
  intro x hx e
  subst e
  exact absurd (itoa_digit n 45 hx).1 (by decide)

theorem itoaInt_inj {a b : Int} (h : itoaInt a = itoaInt b) : a = b := by
  have minus : ∀ n m : Nat, go!"-" ++ itoa n ≠ itoa m := by
    intro n m e
    exact itoa_no_minus m 45 (by rw [← e]; simp) rfl
  unfold itoaInt at h
  split at h <;> split at h
  · have := itoa_inj (List.append_cancel_left h); omega
  · exact absurd h (minus _ _)
  · exact absurd h.symm (minus _ _)
  · have := itoa_inj h; omega

/-- C98, while the minute of the hour has not wrapped around: the update made `n` minutes after the start is filed under `n`.
Missing: a start at minute 58 is followed by the periods -58, -57, ... -/
theorem C98_directory_counts_periods_partial (t0 t : Instant) (clk : Clock) (h0 : c.periodOffset = getCurrentPeriod t0)
    (h : ClockAt t clk) (hm : t0.minute ≤ t.minute) (s s' : MonState) (hs : monStep X c s (.finish clk) = some s') :
    ∃ u, s'.files.get (itoa (t.minute - t0.minute)) = some u ∧ u.period = getCurrentPeriod t := by
  cases hs
  have e : periodIO c clk = itoa (t.minute - t0.minute) := by
    rw [periodIO_at c h0 h, itoaInt, if_neg (by omega)]
    congr 1
    omega
  exact ⟨generateUpdate c clk (Mon.wipeStorage clk (cleanConflicting s)), by rw [← e]; exact GoMap.get_set_self _ _ _, h⟩

/-- C98: the update of a period stays on file as it was written for as long as no period with the same minute of the hour
ends, in every history. Missing: the next theorem. -/
theorem C98_kept_partial (t : Instant) (clk : Clock) (h : ClockAt t clk) (t0 : Instant) (h0 : c.periodOffset = getCurrentPeriod t0)
    (s s' : MonState) (u : ClientUpdate) (hu : s.files.get (periodIO c clk) = some u) (evs : List MonEvent)
    (hc : ∀ k, MonEvent.finish k ∈ evs → ∃ t', ClockAt t' k ∧ t'.minute ≠ t.minute) (hs : monRun X c s evs = some s') :
    s'.files.get (periodIO c clk) = some u := by
  induction evs generalizing s with
  | nil => cases hs; exact hu
  | cons e r ih =>
    unfold monRun at hs
    cases h1 : monStep X c s e with
    | none => rw [h1] at hs; cases hs
    | some s1 =>
      rw [h1] at hs
      refine ih s1 ?_ (fun k hk => hc k (List.mem_cons_of_mem _ hk)) hs
      rcases Wire.files_step X c h1 with ⟨k, rfl, hf⟩ | ⟨_, hf⟩
      · obtain ⟨t', ht', hne⟩ := hc k (by simp)
        rw [hf, GoMap.get_set_ne _ _ ?_]
        · exact hu
        · rw [periodIO_at c h0 h, periodIO_at c h0 ht']
          intro e
          have := itoaInt_inj e
          omega
      · rw [hf]; exact hu

/-- C98 is false: whatever happens in between, an hour later the name of the directory comes back and the update filed
there is the new one, labelled with the same period. -/
theorem C98_violated_after_an_hour (t t' : Instant) (hm : t.minute = t'.minute) (clk clk' : Clock) (h : ClockAt t clk)
    (h' : ClockAt t' clk') (s s1 s2 s3 : MonState) (evs : List MonEvent) (h1 : monStep X c s (.finish clk) = some s1)
    (_ : monRun X c s1 evs = some s2) (h3 : monStep X c s2 (.finish clk') = some s3) :
    ∃ d u u', s1.files.get d = some u ∧ s3.files.get d = some u' ∧ u'.period = u.period ∧
      (∀ g ∈ u'.sths, s2.sthFull.values.contains g = true) := by
  have e : periodIO c clk' = periodIO c clk := by
    rw [periodIO, periodIO, h, h', (C72_period_identifies_minute t t').2 hm]
  cases h1; cases h3
  refine ⟨periodIO c clk, _, _, GoMap.get_set_self _ _ _, by rw [← e]; exact GoMap.get_set_self _ _ _, ?_, ?_⟩
  · show clk'.period = clk.period
    rw [h, h', (C72_period_identifies_minute t t').2 hm]
  · intro g hg
    obtain ⟨k, hk⟩ := (GoMap.mem_values_iff _ _).1 hg
    have := get_filter_some.1 (get_filter_some.1 hk).1
    simp only [List.contains_iff_mem]
    exact (GoMap.mem_values_iff _ _).2 ⟨k, this.1⟩

namespace Ref

/-- Minute 5, minute 6, and minute 5 an hour later. -/
def at06 : Instant := ⟨2024, 1, 1, 10, 6, 40, by decide, by decide, by decide, by decide, by decide, by decide⟩
def at05h : Instant := ⟨2024, 1, 1, 11, 5, 40, by decide, by decide, by decide, by decide, by decide, by decide⟩
def at03 : Instant := ⟨2024, 1, 1, 10, 3, 0, by decide, by decide, by decide, by decide, by decide, by decide⟩
def clkAt06 : Clock := { clk with period := go!"06" }

/-- A monitor started at minute 3. -/
def conf03 : MonConf lib := { monConf with periodOffset := go!"03" }

theorem clockAt05 : ClockAt at05 clk ∧ ClockAt at06 clkAt06 ∧ ClockAt at05h clk ∧ conf03.periodOffset = getCurrentPeriod at03 := by
  unfold ClockAt
  rw [period_eq_padInt, period_eq_padInt, period_eq_padInt, period_eq_padInt]
  refine ⟨?_, ?_, ?_, ?_⟩ <;> (rw [padInt_two _ (by decide)]; rfl)

set_option synthInstance.maxSize 1000 in
/-- C98: the tree head filed in the period at minute 5 is in no file once the hour is over. -/
theorem C98_violated_update_lost :
    ((monRun xlib conf03 initMonitor [.gossip (some sthFull05), .finish clk]).map fun s =>
      (s.files.len, (s.files.get (go!"2")).map (·.sths))) = some (1, some [sthFull05]) ∧
    ((monRun xlib conf03 initMonitor [.gossip (some sthFull05), .finish clk, .finish clkAt06,
      .finish clk]).map fun s => s.files.values.map (·.sths)) = some [[], []] := by decide +kernel

/-- C98: the hypotheses of the theorems above. -/
example : ClockAt at05 clk ∧ ClockAt at06 clkAt06 ∧ at06.minute ≠ at05.minute ∧ at05.minute = at05h.minute ∧
    conf03.periodOffset = getCurrentPeriod at03 ∧ at03.minute ≤ at05.minute :=
  ⟨clockAt05.1, clockAt05.2.1, by decide, rfl, clockAt05.2.2.2, by decide⟩

end Ref

/-! ### C99: loading a stored list -/

/-- The storage that a name passed to `LoadOneStorage` stands for. -/
inductive StoreOf : GType → (MonState → GStore) → Prop
  | con : StoreOf .CON_INIT (·.conflictPom)
  | acc : StoreOf .ACC_FULL (·.accusationPom)
  | sth : StoreOf .STH_FULL (·.sthFull)
  | rev : StoreOf .REV_FULL (·.revFull)

theorem foldl_set_get (l : List GossipObj) (m : GStore) (k : GossipID) :
    (l.foldl (fun m o => m.set o.getID o) m).get k = ((l.reverse.find? fun o => o.getID = k).or (m.get k)) := by
  induction l generalizing m with
  | nil => rfl
  | cons o t ih =>
    rw [List.foldl_cons, ih, List.reverse_cons, List.find?_append]
    cases hf : t.reverse.find? fun o => decide (o.getID = k) with
    | some v => rfl
    | none =>
      simp only [Option.none_or]
      by_cases e : o.getID = k
      · subst e
        rw [GoMap.get_set_self]
        simp
      · rw [GoMap.get_set_ne _ _ (fun h => e h.symm)]
        simp [e]

/-- C99, what is loaded: under each id the last object of the list with that id, and what was there before if there is none;
the other three storages stay. Missing: the call reports an error although it succeeded (next theorem). -/
theorem C99_loaded_partial (name : GType) (f : MonState → GStore) (hf : StoreOf name f) (s : MonState) (l : List GossipObj) :
    (∀ k, (f (loadOneStorage s name l).1).get k = ((l.reverse.find? fun o => o.getID = k).or ((f s).get k))) ∧
    (∀ name' f', StoreOf name' f' → name' ≠ name → f' (loadOneStorage s name l).1 = f' s) := by
  constructor
  · intro k
    cases hf <;> exact foldl_set_get l _ k
  · intro name' f' hf' hne
    cases hf <;> cases hf' <;> first | rfl | exact absurd rfl hne

/-- C99 is false: loading a list always reports a mismatch, whatever the name and the list. -/
theorem C99_violated_always_fails (name : GType) (s : MonState) (l : List GossipObj) : (loadOneStorage s name l).2 = false := rfl

/-- C99 is false: objects of any type are filed in the storage that was named, and nothing is verified: a tree head that is
signed by nobody ends up among the threshold-signed revocations. -/
theorem C99_violated_type_unchecked (s : MonState) (g : GossipObj) :
    (loadOneStorage s .REV_FULL [g]).1.revFull.get g.getID = some g := by
  rw [(C99_loaded_partial .REV_FULL _ .rev s [g]).1]
  simp

/-- C99 on two lists, one of them with two objects of the same id. -/
example : ((loadOneStorage initMonitor .STH_FULL [Ref.sthFull05, { Ref.sthFull05 with timestamp := go!"u" }]).1.sthFull.get
    Ref.sthFull05.getID).map (·.timestamp) = some (go!"u") ∧ ∃ f, StoreOf .STH_FULL f := ⟨by decide +kernel, _, .sth⟩

end CTng
