import Verif.Model.Util
/- Decimal numbers. -/
set_option autoImplicit false

namespace CTng

theorem itoa_digit (n : Nat) : ∀ ch ∈ itoa n, 48 ≤ ch ∧ ch ≤ 57 := by
  induction n using Nat.strongRecOn with
  | ind n ih =>
    have key : ∀ k, k < 10 → 48 ≤ UInt8.ofNat (48 + k) ∧ UInt8.ofNat (48 + k) ≤ 57 := by
      intro k hk
      have : (UInt8.ofNat (48 + k)).toNat = 48 + k := by rw [UInt8.toNat_ofNat']; omega
      constructor <;> (rw [UInt8.le_iff_toNat_le, this]; simp; try omega)
    intro ch h
    rw [itoa] at h
    split at h
    · rename_i hn
      simp only [List.mem_singleton] at h
      exact h ▸ key n hn
    · rename_i hn
      simp only [List.mem_append, List.mem_singleton] at h
      rcases h with h | h
      · exact ih (n / 10) (by omega) ch h
      · exact h ▸ key _ (Nat.mod_lt _ (by decide))

theorem atoiAux_append (a b : Str) (n : Nat) : atoiAux (a ++ b) n = (atoiAux a n).bind (atoiAux b) := by
  induction a generalizing n with
  | nil => rfl
  | cons ch t ih =>
    simp only [List.cons_append, atoiAux]
    cases digitVal ch with
    | none => rfl
    | some d => exact ih _

theorem digitVal_ofNat (k : Nat) (h : k < 10) : digitVal (UInt8.ofNat (48 + k)) = some k := by
  have h1 : (UInt8.ofNat (48 + k)).toNat = 48 + k := by rw [UInt8.toNat_ofNat']; omega
  unfold digitVal
  rw [if_pos]
  · rw [h1]; simp
  · constructor <;> (rw [UInt8.le_iff_toNat_le, h1]; simp; try omega)

/-- `Atoi` inverts `Itoa`. -/
theorem atoi_itoa (n : Nat) : atoi (itoa n) = some n := by
  have hne : itoa n ≠ [] := by rw [itoa]; split <;> simp
  have key : ∀ n, atoiAux (itoa n) 0 = some n := by
    intro n
    induction n using Nat.strongRecOn with
    | ind n ih =>
      rw [itoa]
      split
      · rename_i h
        simp only [atoiAux, digitVal_ofNat n h, Nat.zero_mul, Nat.zero_add]
      · rename_i h
        rw [atoiAux_append, ih (n / 10) (by omega)]
        simp only [Option.bind_some, atoiAux, digitVal_ofNat (n % 10) (Nat.mod_lt _ (by decide)), Option.some.injEq]
        omega
  simp [atoi, hne, key n]

theorem itoa_inj {a b : Nat} (h : itoa a = itoa b) : a = b := by
  have := atoi_itoa a
  rw [h, atoi_itoa] at this
  exact (Option.some.inj this).symm

end CTng
