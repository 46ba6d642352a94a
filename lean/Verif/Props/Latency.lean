import Verif.Model.Latency
/- C158: latencies. -/
set_option autoImplicit false

namespace CTng

/-! ### Specification -/

/-- The party goes on after `d` milliseconds. -/
def GoesOnAfter (rnd : Nat → Draw) (min max d : Int) : Prop := ∃ fuel, delayBefore rnd min max fuel = some d

/-- The fraction is less than one. -/
def Draw.below1 (e : Draw) : Prop := e.num < e.den

/-- `d` is `min` plus the fraction `e` of the way to `max`, cut off towards zero. -/
def ScaledBy (e : Draw) (min max d : Int) : Prop :=
  ∃ v r : Int, v = e.num * (max - min) + min * e.den ∧ v = d * e.den + r ∧ r.natAbs < e.den ∧ (0 ≤ v → 0 ≤ r) ∧ (v ≤ 0 → r ≤ 0)

/-! ### Lemmas -/

theorem latencyLoop_first (draw : Nat → Int) (min max : Int) (j : Nat) (h : min ≤ draw j ∧ draw j < max) (i : Nat) (hij : i ≤ j)
    (hb : ∀ k, i ≤ k → k < j → ¬ (min ≤ draw k ∧ draw k < max)) :
    randomLatencyLoop draw min max (j - i + 1) i = some (draw j) := by
  obtain ⟨n, rfl⟩ : ∃ n, j = i + n := ⟨j - i, by omega⟩
  induction n generalizing i with
  | zero => simp only [Nat.add_zero, Nat.sub_self, randomLatencyLoop] at h ⊢; rw [if_pos h]
  | succ n ih =>
    rw [show i + (n + 1) - i + 1 = n + 1 + 1 by omega, randomLatencyLoop, if_neg (hb i (Nat.le_refl _) (by omega))]
    have e : i + (n + 1) = i + 1 + n := by omega
    rw [e] at h hb ⊢
    have := ih (i + 1) h (by omega) (fun k h1 h2 => hb k (by omega) h2)
    rwa [show i + 1 + n - (i + 1) + 1 = n + 1 by omega] at this

theorem latencyLoop_some (draw : Nat → Int) (min max : Int) (fuel i : Nat) (v : Int)
    (h : randomLatencyLoop draw min max fuel i = some v) :
    ∃ j, i ≤ j ∧ v = draw j ∧ (min ≤ draw j ∧ draw j < max) ∧ ∀ k, i ≤ k → k < j → ¬ (min ≤ draw k ∧ draw k < max) := by
  induction fuel generalizing i with
  | zero => cases h
  | succ f ih =>
    simp only [randomLatencyLoop] at h
    split at h
    · rename_i hc; cases h; exact ⟨i, Nat.le_refl _, rfl, hc, fun k h1 h2 => absurd h1 (by omega)⟩
    · rename_i hc
      obtain ⟨j, h1, h2, h3, h4⟩ := ih _ h
      refine ⟨j, by omega, h2, h3, fun k h5 h6 => ?_⟩
      rcases Nat.eq_or_lt_of_le h5 with rfl | h7
      · exact hc
      · exact h4 k h7 h6

/-- A draw is taken if and only if it is below one. -/
theorem Draw.taken_iff (e : Draw) {min max : Int} (hlt : min < max) (hpos : 0 < max) :
    (min ≤ e.latency min max ∧ e.latency min max < max) ↔ e.below1 := by
  unfold Draw.latency Draw.below1
  have hb : (0 : Int) < e.den := by have := e.pos; omega
  have hd : (0 : Int) < max - min := by omega
  have hn0 : 0 ≤ (e.num : Int) * (max - min) := Int.mul_nonneg (by omega) (by omega)
  have hsplit : max * e.den = (e.den : Int) * (max - min) + min * e.den := by
    rw [Int.mul_sub, Int.mul_comm (e.den : Int) max, Int.mul_comm (e.den : Int) min]; omega
  have hcmp : (e.num < e.den) ↔ (e.num : Int) * (max - min) + min * e.den < max * e.den := by
    rw [hsplit]
    constructor
    · intro h
      have := Int.mul_lt_mul_of_pos_right (show (e.num : Int) < e.den by omega) hd
      omega
    · intro h
      apply Classical.byContradiction
      intro hge
      have := Int.mul_le_mul_of_nonneg_right (show (e.den : Int) ≤ e.num by omega) (show 0 ≤ max - min by omega)
      omega
  rw [hcmp]
  generalize hv : (e.num : Int) * (max - min) + min * e.den = v at *
  have hmin : min * e.den ≤ v := by omega
  by_cases h0 : 0 ≤ v
  · rw [Int.tdiv_eq_ediv_of_nonneg h0]
    constructor
    · intro h; exact (Int.ediv_lt_iff_lt_mul hb).1 h.2
    · intro h; exact ⟨(Int.le_ediv_iff_mul_le hb).2 hmin, (Int.ediv_lt_iff_lt_mul hb).2 h⟩
  · have hneg : Int.tdiv v e.den = -((-v) / e.den) := by
      rw [← Int.tdiv_eq_ediv_of_nonneg (by omega), Int.neg_tdiv]; omega
    have hq : 0 ≤ (-v) / (e.den : Int) := Int.ediv_nonneg (by omega) (by omega)
    have hmx : 0 < max * (e.den : Int) := Int.mul_pos hpos hb
    rw [hneg]
    constructor
    · intro _; omega
    · intro _
      refine ⟨?_, by omega⟩
      have : (-v) / (e.den : Int) ≤ -min := by
        have h1 : (-v) / (e.den : Int) < -min + 1 := by
          rw [Int.ediv_lt_iff_lt_mul hb, Int.add_mul, Int.neg_mul]; omega
        omega
      omega

theorem Draw.scaled (e : Draw) (min max : Int) : ScaledBy e min max (e.latency min max) := by
  refine ⟨_, Int.tmod (e.num * (max - min) + min * e.den) e.den, rfl, ?_, ?_, ?_, ?_⟩
  · unfold Draw.latency
    have := Int.mul_tdiv_add_tmod (e.num * (max - min) + min * e.den) e.den
    rw [Int.mul_comm (e.den : Int) (Int.tdiv _ _)] at this
    exact this.symm
  · have := Int.natAbs_tmod (e.num * (max - min) + min * e.den) e.den
    rw [this]
    simpa using Nat.mod_lt _ e.pos
  · intro h; exact Int.tmod_nonneg _ h
  · intro h
    have := Int.tmod_nonneg (e.den : Int) (show 0 ≤ -(e.num * (max - min) + min * e.den) by omega)
    rw [Int.neg_tmod] at this
    omega

/-! ### C158 -/

/-- C158, what holds: a party with `Min_latency < Max_latency` and `0 < Max_latency` goes on as soon as the random source yields a
fraction below one, and only then. The delay lies between the two bounds, the upper one excluded, and is the lower bound plus that
fraction of the way to the upper one, in whole milliseconds. Missing: `Max_latency ≤ Min_latency` (`C158_violated_never_goes_on`). The
arithmetic is exact, where the code rounds to float64. -/
theorem C158_latency_partial (rnd : Nat → Draw) (min max : Int) (hlt : min < max) (hpos : 0 < max) :
    ((∃ d, GoesOnAfter rnd min max d) ↔ ∃ i, (rnd i).below1) ∧
    ∀ d, GoesOnAfter rnd min max d → min ≤ d ∧ d < max ∧
      ∃ i, (rnd i).below1 ∧ (∀ j < i, ¬ (rnd j).below1) ∧ ScaledBy (rnd i) min max d := by
  have main : ∀ d, GoesOnAfter rnd min max d → min ≤ d ∧ d < max ∧
      ∃ i, (rnd i).below1 ∧ (∀ j < i, ¬ (rnd j).below1) ∧ ScaledBy (rnd i) min max d := by
    rintro d ⟨fuel, h⟩
    unfold delayBefore at h
    rw [if_pos hpos] at h
    obtain ⟨j, _, rfl, h2, h3⟩ := latencyLoop_some _ _ _ _ _ _ h
    refine ⟨h2.1, h2.2, j, ((rnd j).taken_iff hlt hpos).1 h2, fun k hk hb => ?_, (rnd j).scaled min max⟩
    exact h3 k (Nat.zero_le _) hk (((rnd k).taken_iff hlt hpos).2 hb)
  refine ⟨⟨?_, ?_⟩, main⟩
  · rintro ⟨d, h⟩
    obtain ⟨_, _, i, hi, _⟩ := main d h
    exact ⟨i, hi⟩
  · rintro ⟨i, hi⟩
    have hex : ∃ j, (rnd j).below1 ∧ ∀ k < j, ¬ (rnd k).below1 := by
      induction i using Nat.strongRecOn with
      | ind i ih =>
        by_cases h : ∃ k < i, (rnd k).below1
        · obtain ⟨k, hk, hb⟩ := h; exact ih k hk hb
        · exact ⟨i, hi, fun k hk hb => h ⟨k, hk, hb⟩⟩
    obtain ⟨j, hj, hb⟩ := hex
    refine ⟨(rnd j).latency min max, j - 0 + 1, ?_⟩
    unfold delayBefore getRandomLatency
    rw [if_pos hpos]
    exact latencyLoop_first _ min max j (((rnd j).taken_iff hlt hpos).2 hj) 0 (Nat.zero_le _)
      (fun k _ hk hc => hb k hk (((rnd k).taken_iff hlt hpos).1 hc))

/-- With the latencies of Test2 (tests/networktests/Test2/Test2.go:68-69), 20 and 250: the fraction 3/2 is discarded, and 1/4
gives 20 + 57.5, cut off. -/
example : GoesOnAfter (fun i => if i = 0 then ⟨3, 2, by decide⟩ else ⟨1, 4, by decide⟩) 20 250 77 := ⟨2, by decide⟩
example : ∃ d, GoesOnAfter (fun i => ⟨3, i + 1, by omega⟩) 20 250 d :=
  (C158_latency_partial _ 20 250 (by decide) (by decide)).1.2 ⟨5, by show 3 < 6; decide⟩

/-- C158: with `Max_latency = 0` (or less) there is no delay. -/
theorem C158_no_latency_partial (rnd : Nat → Draw) (min max : Int) (hpos : max ≤ 0) (d : Int) : GoesOnAfter rnd min max d ↔ d = 0 := by
  unfold GoesOnAfter delayBefore
  simp only [if_neg (show ¬ max > 0 by omega)]
  constructor
  · rintro ⟨_, h⟩; cases h; rfl
  · rintro rfl; exact ⟨0, rfl⟩

/-- C158 is violated when the bounds leave no room, as in a fixed delay of 20 milliseconds (`Min_latency = Max_latency = 20`): whatever
the random source yields, the loop does not end. The gossiper never forwards, the monitor never asks and the logger and CA never
answer; each attempt leaves a goroutine spinning. -/
theorem C158_violated_never_goes_on (rnd : Nat → Draw) (min max : Int) (hpos : 0 < max) (h : max ≤ min) (d : Int) :
    ¬ GoesOnAfter rnd min max d := by
  rintro ⟨fuel, hd⟩
  unfold delayBefore at hd
  rw [if_pos hpos] at hd
  obtain ⟨j, _, _, ⟨h1, h2⟩, _⟩ := latencyLoop_some _ _ _ _ _ _ hd
  omega

example : ¬ GoesOnAfter (fun i => ⟨i, 7, by decide⟩) 20 20 20 := C158_violated_never_goes_on _ 20 20 (by decide) (by decide) 20

end CTng
