import Verif.Model.Util
/- Properties C72-C74: period strings, bit packing, random positions. -/
set_option autoImplicit false

namespace CTng

/-! ### Decimal strings -/

theorem itoa_length_le : ∀ (k n : Nat), n < 10 ^ (k + 1) → (itoa n).length ≤ k + 1
  | 0, n, h => by
    have : n < 10 := by simpa using h
    rw [itoa]; simp [this]
  | k + 1, n, h => by
    rw [itoa]
    split
    · simp
    · have : n / 10 < 10 ^ (k + 1) := by
        rw [Nat.div_lt_iff_lt_mul (by decide)]
        rw [Nat.pow_succ] at h; exact h
      have := itoa_length_le k _ this
      simp only [List.length_append, List.length_cons, List.length_nil]
      omega

theorem padInt_length (w n : Nat) (h : n < 10 ^ (w + 1)) : (padInt (w + 1) n).length = w + 1 := by
  have := itoa_length_le w n h
  simp only [padInt, List.length_append, List.length_replicate]
  omega

/-- `s` is the two-digit decimal notation of `n`. -/
def TwoDigits (s : Str) (n : Nat) : Prop :=
  ∃ a b : Nat, a < 10 ∧ b < 10 ∧ s = [UInt8.ofNat (48 + a), UInt8.ofNat (48 + b)] ∧ n = 10 * a + b

theorem padInt_two : ∀ (n : Nat), n < 100 → padInt 2 n = [UInt8.ofNat (48 + n / 10), UInt8.ofNat (48 + n % 10)] := by
  intro n h
  rw [padInt, itoa]
  by_cases h1 : n < 10
  · have : n / 10 = 0 := by omega
    have h2 : n % 10 = n := by omega
    simp [h1, this, h2]
  · have h2 : n / 10 < 10 := by omega
    have : itoa (n / 10) = [UInt8.ofNat (48 + n / 10)] := by rw [itoa]; simp [h2]
    simp [h1, this]

theorem drop14_rfc (t : Instant) : t.rfc3339.drop 14 = padInt 2 t.minute ++ (go!":" ++ (padInt 2 t.second ++ go!"Z")) := by
  have h1 := padInt_length 3 t.year t.year_lt
  have h2 := padInt_length 1 t.month (by have := t.month_lt; omega)
  have h3 := padInt_length 1 t.day (by have := t.day_lt; omega)
  have h4 := padInt_length 1 t.hour (by have := t.hour_lt; omega)
  have e : t.rfc3339 = (padInt 4 t.year ++ go!"-" ++ padInt 2 t.month ++ go!"-" ++ padInt 2 t.day ++ go!"T" ++
      padInt 2 t.hour ++ go!":") ++ (padInt 2 t.minute ++ (go!":" ++ (padInt 2 t.second ++ go!"Z"))) := by
    simp only [Instant.rfc3339, List.append_assoc]
  rw [e, List.drop_append_of_le_length]
  · rw [List.drop_eq_nil_of_le]
    · simp
    · simp only [List.length_append, h1, h2, h3, h4]; simp
  · simp only [List.length_append, h1, h2, h3, h4]; simp

theorem period_eq_padInt (t : Instant) : getCurrentPeriod t = padInt 2 t.minute := by
  have h := padInt_length 1 t.minute (by have := t.minute_lt; omega)
  rw [getCurrentPeriod, slice, drop14_rfc, List.take_append_of_le_length (by simp [h])]
  exact List.take_of_length_le (by simp [h])

theorem slice17_rfc (t : Instant) : slice t.rfc3339 17 19 = padInt 2 t.second := by
  have h := padInt_length 1 t.minute (by have := t.minute_lt; omega)
  have h' := padInt_length 1 t.second (by have := t.second_lt; omega)
  have e : t.rfc3339.drop 17 = padInt 2 t.second ++ go!"Z" := by
    have : t.rfc3339.drop 17 = (t.rfc3339.drop 14).drop 3 := by rw [List.drop_drop]
    rw [this, drop14_rfc, ← List.append_assoc, List.drop_append_of_le_length (by simp [h]),
      List.drop_eq_nil_of_le (by simp [h])]
    simp
  rw [slice, e, List.take_append_of_le_length (by simp [h'])]
  exact List.take_of_length_le (by simp [h'])

theorem digitVal_digit (d : Nat) (h : d < 10) : digitVal (UInt8.ofNat (48 + d)) = some d := by
  have : ∀ d : Fin 10, digitVal (UInt8.ofNat (48 + d.1)) = some d.1 := by decide
  exact this ⟨d, h⟩

theorem atoi_padInt_two (n : Nat) (h : n < 100) : atoi (padInt 2 n) = some n := by
  rw [padInt_two n h]
  simp only [atoi, atoiAux, digitVal_digit _ (show n / 10 < 10 by omega), digitVal_digit _ (show n % 10 < 10 by omega)]
  simp
  omega

theorem twoDigits_inj {s : Str} {n m : Nat} (h : TwoDigits s n) (h' : TwoDigits s m) : n = m := by
  obtain ⟨a, b, ha, hb, rfl, rfl⟩ := h
  obtain ⟨c, d, hc, hd, e, rfl⟩ := h'
  have key : ∀ x y : Fin 10, UInt8.ofNat (48 + x.1) = UInt8.ofNat (48 + y.1) → x = y := by decide
  simp only [List.cons.injEq, and_true] at e
  have e1 := key ⟨a, ha⟩ ⟨c, hc⟩ e.1
  have e2 := key ⟨b, hb⟩ ⟨d, hd⟩ e.2
  simp only [Fin.mk.injEq] at e1 e2
  omega

/-- C72, first half: at every instant the period string of monitors, gossipers and loggers is the two-digit minute. -/
theorem C72_period_two_digits (t : Instant) : TwoDigits (getCurrentPeriod t) t.minute := by
  have := t.minute_lt
  rw [period_eq_padInt, padInt_two _ (by omega)]
  exact ⟨t.minute / 10, t.minute % 10, by omega, by omega, rfl, by omega⟩

/-- C72: the period string determines the minute of the hour, and only it. -/
theorem C72_period_identifies_minute (t u : Instant) : getCurrentPeriod t = getCurrentPeriod u ↔ t.minute = u.minute := by
  constructor
  · intro h
    exact twoDigits_inj (C72_period_two_digits t) (h ▸ C72_period_two_digits u)
  · intro h
    rw [period_eq_padInt, period_eq_padInt, h]

/-- The CA's and the logger's own `GetCurrentPeriod` is the unpadded decimal minute. -/
theorem C72_numeric_period (t : Instant) : getCurrentPeriodNum t = itoa t.minute := by
  have := t.minute_lt
  have e : slice t.rfc3339 14 16 = padInt 2 t.minute := period_eq_padInt t
  rw [getCurrentPeriodNum, e, atoi_padInt_two _ (by omega)]
  rfl

/-- C72, second half, what holds: the two notations of a minute agree exactly from minute 10 on. Missing: minutes 0-9. -/
theorem C72_notations_agree_partial (t : Instant) : getCurrentPeriodNum t = getCurrentPeriod t ↔ 10 ≤ t.minute := by
  have h := t.minute_lt
  rw [C72_numeric_period, period_eq_padInt]
  constructor
  · intro e
    apply Classical.byContradiction
    intro hlt
    have h1 : (itoa t.minute).length = 1 := by rw [itoa]; simp [show t.minute < 10 by omega]
    have h2 := padInt_length 1 t.minute (by omega)
    rw [← e, h1] at h2
    omega
  · intro hge
    have h1 := itoa_length_le 1 t.minute (by omega)
    have h2 : (itoa t.minute).length = 2 := by
      rw [itoa]
      have h3 : ¬ t.minute < 10 := by omega
      have h4 : itoa (t.minute / 10) = [UInt8.ofNat (48 + t.minute / 10)] := by
        rw [itoa]; simp [show t.minute / 10 < 10 by omega]
      simp [h3, h4]
    simp [padInt, h2]

/-- C72 violated: in the first ten minutes of every hour the CA's period string is not the one monitors and gossipers
use. -/
theorem C72_violated_first_ten_minutes (t : Instant) (h : t.minute < 10) : getCurrentPeriodNum t ≠ getCurrentPeriod t := by
  intro e
  have := (C72_notations_agree_partial t).1 e
  omega

/-- The instant 2023-05-17T14:05:59Z. -/
def Ref.instant : Instant := ⟨2023, 5, 17, 14, 5, 59, by decide, by decide, by decide, by decide, by decide, by decide⟩

example : Ref.instant.rfc3339 = go!"2023-05-17T14:05:59Z" ∧ getCurrentPeriod Ref.instant = go!"05" ∧
    getCurrentPeriodNum Ref.instant = go!"5" ∧ Ref.instant.minute < 10 := by decide +kernel

example : TwoDigits (go!"05") 5 := ⟨0, 5, by decide, by decide, by decide, by decide⟩

/-- The waiting time until the end of the period never panics and is between MMD - 59 and MMD. -/
theorem C72_waiting_time (mmd : Int) (t : Instant) : ∃ w, getWaitingTime mmd t = some w ∧ mmd - 59 ≤ w ∧ w ≤ mmd ∧
    w + t.second = mmd := by
  have h := t.second_lt
  refine ⟨mmd - t.second, ?_, by omega, by omega, by omega⟩
  rw [getWaitingTime, slice17_rfc, atoi_padInt_two _ (by omega)]
  rfl

example : getWaitingTime 60 Ref.instant = some 1 := by decide +kernel

/-! ### Bits and bytes -/

theorem setBit_length (bl : List UInt64) (k : Nat) : (setBit bl k).length = bl.length := by
  unfold setBit; split <;> simp

theorem getBit_setBit (bl : List UInt64) (k j : Nat) :
    getBit (setBit bl k) j = ((decide (j = k) && decide (k / 64 < bl.length)) || getBit bl j) := by
  unfold setBit
  split
  · rename_i h
    unfold getBit
    by_cases hj : j / 64 = k / 64
    · have hjl : j / 64 < bl.length := hj ▸ h
      rw [List.getElem?_modify, hj]
      have hget : bl[k / 64]? = some bl[k / 64] := List.getElem?_eq_getElem h
      simp only [hget, Option.map_eq_map, Option.map_some, if_true, Option.getD_some]
      rw [UInt64.toNat_or, Nat.testBit_or, UInt64.toNat_shiftLeft]
      have hr : k % 64 < 64 := Nat.mod_lt _ (by decide)
      have hs : (UInt64.ofNat (k % 64)).toNat % 64 = k % 64 := by
        rw [UInt64.toNat_ofNat']; omega
      have hp : (2 : Nat) ^ (k % 64) < 2 ^ 64 := Nat.pow_lt_pow_right (by decide) hr
      have h1 : (1 : UInt64).toNat = 1 := rfl
      rw [hs, h1, Nat.shiftLeft_eq, Nat.one_mul, Nat.mod_eq_of_lt hp, Nat.testBit_two_pow]
      have : (k % 64 = j % 64) ↔ j = k := by omega
      simp only [this, h, decide_true, Bool.and_true]
      rw [Bool.or_comm]
    · rw [List.getElem?_modify]
      have h1 : ¬ k / 64 = j / 64 := fun e => hj e.symm
      have h2 : ¬ j = k := fun e => hj (by rw [e])
      cases hb : bl[j / 64]? <;> simp [h1, h2]
  · rename_i h
    simp [h]

theorem foldl_setBit_length (l : List Nat) (bl : List UInt64) (i : Nat) (b : UInt8) :
    (l.foldl (fun acc j => if b.toNat &&& 2 ^ j = 2 ^ j then setBit acc (i * 8 + j) else acc) bl).length = bl.length := by
  induction l generalizing bl with
  | nil => rfl
  | cons a t ih =>
    rw [List.foldl_cons, ih]
    split
    · exact setBit_length _ _
    · rfl

theorem setByte_length (bl : List UInt64) (i : Nat) (b : UInt8) : (setByte bl i b).length = bl.length :=
  foldl_setBit_length _ _ _ _

theorem and_two_pow_iff (n j : Nat) : (n &&& 2 ^ j = 2 ^ j) ↔ n.testBit j = true := by
  constructor
  · intro h
    have : (n &&& 2 ^ j).testBit j = true := by rw [h]; exact Nat.testBit_two_pow_self
    rw [Nat.testBit_and] at this
    simp only [Bool.and_eq_true] at this
    exact this.1
  · intro h
    apply Nat.eq_of_testBit_eq
    intro i
    rw [Nat.testBit_and, Nat.testBit_two_pow]
    by_cases e : j = i
    · subst e; simp [h]
    · simp [e]

theorem getBit_foldl_setBit (l : List Nat) (bl : List UInt64) (i : Nat) (b : UInt8) (k : Nat)
    (hr : ∀ j ∈ l, (i * 8 + j) / 64 < bl.length) :
    getBit (l.foldl (fun acc j => if b.toNat &&& 2 ^ j = 2 ^ j then setBit acc (i * 8 + j) else acc) bl) k =
      (l.any (fun j => decide (k = i * 8 + j) && b.toNat.testBit j) || getBit bl k) := by
  induction l generalizing bl with
  | nil => simp
  | cons a t ih =>
    rw [List.foldl_cons]
    have ha : (i * 8 + a) / 64 < bl.length := hr a (by simp)
    have hlen : (if b.toNat &&& 2 ^ a = 2 ^ a then setBit bl (i * 8 + a) else bl).length = bl.length := by
      split
      · exact setBit_length _ _
      · rfl
    rw [ih _ (by intro j hj; rw [hlen]; exact hr j (by simp [hj]))]
    rw [List.any_cons]
    by_cases hb : b.toNat.testBit a = true
    · rw [if_pos ((and_two_pow_iff _ _).2 hb), getBit_setBit]
      simp only [ha, decide_true, Bool.and_true, hb]
      cases (t.any fun j => decide (k = i * 8 + j) && b.toNat.testBit j) <;> cases decide (k = i * 8 + a) <;> simp
    · rw [if_neg (fun e => hb ((and_two_pow_iff _ _).1 e))]
      simp [hb]

theorem any_range8 (k i : Nat) (b : UInt8) :
    ((List.range 8).any (fun j => decide (k = i * 8 + j) && b.toNat.testBit j)) =
      (decide (k / 8 = i) && b.toNat.testBit (k % 8)) := by
  rw [Bool.eq_iff_iff]
  simp only [List.any_eq_true, List.mem_range, Bool.and_eq_true, decide_eq_true_eq]
  constructor
  · rintro ⟨j, h1, h2, h3⟩
    have : k % 8 = j := by omega
    exact ⟨by omega, this ▸ h3⟩
  · rintro ⟨h1, h2⟩
    exact ⟨k % 8, by omega, by omega, h2⟩

theorem getBit_setByte (bl : List UInt64) (i : Nat) (b : UInt8) (k : Nat) (h : i / 8 < bl.length) :
    getBit (setByte bl i b) k = ((decide (k / 8 = i) && b.toNat.testBit (k % 8)) || getBit bl k) := by
  rw [setByte, getBit_foldl_setBit, any_range8]
  intro j hj
  have := List.mem_range.1 hj
  have : (i * 8 + j) / 64 = i / 8 := by omega
  omega

theorem getBit_foldl_bytes (l : List (UInt8 × Nat)) (bl : List UInt64) (k : Nat) (hr : ∀ p ∈ l, p.2 / 8 < bl.length) :
    getBit (l.foldl (fun acc (b, i) => setByte acc i b) bl) k =
      (l.any (fun p => decide (k / 8 = p.2) && p.1.toNat.testBit (k % 8)) || getBit bl k) := by
  induction l generalizing bl with
  | nil => simp
  | cons a t ih =>
    obtain ⟨b, i⟩ := a
    rw [List.foldl_cons, ih _ (by intro p hp; rw [setByte_length]; exact hr p (by simp [hp]))]
    rw [getBit_setByte _ _ _ _ (hr (b, i) (by simp)), List.any_cons]
    cases (t.any fun p => decide (k / 8 = p.2) && p.1.toNat.testBit (k % 8)) <;> simp

theorem getBit_zeros (n k : Nat) : getBit (List.replicate n (0 : UInt64)) k = false := by
  unfold getBit
  cases h : (List.replicate n (0 : UInt64))[k / 64]? with
  | none => simp
  | some v =>
    have := List.mem_of_getElem? h
    rw [(List.mem_replicate.1 this).2]; simp

theorem bytesToBlocks_length (bs : Str) : (bytesToBlocks bs).length = (bs.length * 8 + 63) / 64 := by
  have : ∀ (l : List (UInt8 × Nat)) (bl : List UInt64),
      (l.foldl (fun acc (b, i) => setByte acc i b) bl).length = bl.length := by
    intro l
    induction l with
    | nil => intro bl; rfl
    | cons a t ih => intro bl; rw [List.foldl_cons, ih, setByte_length]
  rw [bytesToBlocks, this]; simp

/-- C73: bit `8i+j` of the array built from a byte string is bit `j` of byte `i`, and no other bit is set. -/
theorem C73_bits_of_bytes (bs : Str) (k : Nat) :
    getBit (bytesToBlocks bs) k = ((bs[k / 8]?).getD 0).toNat.testBit (k % 8) := by
  rw [bytesToBlocks, getBit_foldl_bytes, getBit_zeros, Bool.or_false, Bool.eq_iff_iff]
  · simp only [List.any_eq_true, Bool.and_eq_true, decide_eq_true_eq]
    constructor
    · rintro ⟨⟨b, i⟩, hm, hi, hb⟩
      rw [List.mem_zipIdx_iff_getElem?] at hm
      simp only at hm hi hb
      rw [hi, hm]; simpa using hb
    · intro h
      cases hg : bs[k / 8]? with
      | none => rw [hg] at h; simp at h
      | some b =>
        rw [hg] at h
        exact ⟨(b, k / 8), by rw [List.mem_zipIdx_iff_getElem?]; exact hg, rfl, by simpa using h⟩
  · rintro ⟨b, i⟩ hp
    rw [List.mem_zipIdx_iff_getElem?] at hp
    have : i < bs.length := (List.getElem?_eq_some_iff.1 hp).1
    simp only [List.length_replicate]
    omega

/-- The iterator of the array visits every block. -/
structure BitArr.Full (b : BitArr) : Prop where
  start : b.start = 0
  stop : b.stop = b.blocks.length

theorem putUint64_length (b : UInt64) : (putUint64 b).length = 8 := by simp [putUint64]

theorem flatMap_putUint64_length (l : List UInt64) : (l.flatMap putUint64).length = 8 * l.length := by
  induction l with
  | nil => rfl
  | cons a t ih => rw [List.flatMap_cons, List.length_append, ih, putUint64_length, List.length_cons]; omega

theorem flatMap_putUint64_get (l : List UInt64) (k : Nat) (h : k < 8 * l.length) :
    (l.flatMap putUint64)[k]? = some (UInt8.ofNat (((l[k / 8]?).getD 0).toNat / 2 ^ (8 * (k % 8)) % 256)) := by
  induction l generalizing k with
  | nil => simp at h
  | cons a t ih =>
    rw [List.flatMap_cons]
    by_cases hk : k < 8
    · rw [List.getElem?_append_left (by rw [putUint64_length]; exact hk)]
      have h1 : k / 8 = 0 := by omega
      have h2 : k % 8 = k := by omega
      simp [putUint64, h1, h2, hk]
    · rw [List.getElem?_append_right (by rw [putUint64_length]; omega), putUint64_length, ih _ (by simp at h; omega)]
      have h1 : k / 8 = (k - 8) / 8 + 1 := by omega
      have h2 : k % 8 = (k - 8) % 8 := by omega
      rw [h1, h2, List.getElem?_cons_succ]

theorem byte_of_block_bit (v i j : Nat) (hj : j < 8) :
    (UInt8.ofNat (v / 2 ^ (8 * i) % 256)).toNat.testBit j = v.testBit (8 * i + j) := by
  rw [UInt8.toNat_ofNat', Nat.mod_mod_of_dvd _ (by decide)]
  rw [Nat.testBit_mod_two_pow, Nat.testBit_div_two_pow]
  simp [hj, Nat.add_comm]

theorem visited_full {b : BitArr} (h : b.Full) : b.visited = b.blocks := by
  simp [BitArr.visited, h.start, h.stop]

/-- C73, what holds: bytes to bits to bytes gives the same bytes followed by the zero bytes that fill the last 64-bit
block, provided the iterator visits every block. -/
theorem C73_bytes_roundtrip_padded_partial (bs : Str) (b : BitArr) (hf : b.Full) (hb : b.blocks = bytesToBlocks bs) :
    bitsToBytes b = bs ++ List.replicate ((8 - bs.length % 8) % 8) 0 := by
  rw [bitsToBytes, visited_full hf, hb]
  apply List.ext_getElem?
  intro k
  have hlen := bytesToBlocks_length bs
  by_cases hk : k < 8 * (bytesToBlocks bs).length
  · rw [flatMap_putUint64_get _ _ hk]
    have hkl : k < bs.length + (8 - bs.length % 8) % 8 := by omega
    have hr : (bs ++ List.replicate ((8 - bs.length % 8) % 8) 0)[k]? = some ((bs[k]?).getD 0) := by
      by_cases h : k < bs.length
      · rw [List.getElem?_append_left h, List.getElem?_eq_getElem h]; rfl
      · rw [List.getElem?_append_right (by omega), List.getElem?_replicate, if_pos (by omega),
          List.getElem?_eq_none (by omega)]; rfl
    rw [hr]
    congr 1
    rw [← UInt8.toNat_inj]
    apply Nat.eq_of_testBit_eq
    intro j
    by_cases hj : j < 8
    · rw [byte_of_block_bit _ _ _ hj]
      have := C73_bits_of_bytes bs (k * 8 + j)
      have e1 : (k * 8 + j) / 8 = k := by omega
      have e2 : (k * 8 + j) % 8 = j := by omega
      have e3 : (k * 8 + j) / 64 = k / 8 := by omega
      have e4 : (k * 8 + j) % 64 = 8 * (k % 8) + j := by omega
      rw [getBit, e1, e2, e3, e4] at this
      exact this
    · have hp : (2 : Nat) ^ 8 ≤ 2 ^ j := Nat.pow_le_pow_right (by decide) (by omega)
      rw [Nat.testBit_lt_two_pow, Nat.testBit_lt_two_pow]
      · have := UInt8.toNat_lt (bs[k]?.getD 0); omega
      · have := UInt8.toNat_lt (UInt8.ofNat (((bytesToBlocks bs)[k / 8]?.getD 0).toNat / 2 ^ (8 * (k % 8)) % 256)); omega
  · rw [List.getElem?_eq_none (by rw [flatMap_putUint64_length]; omega), List.getElem?_eq_none]
    simp only [List.length_append, List.length_replicate]
    omega

/-- C73, what holds: byte strings whose length is a multiple of eight round-trip exactly. -/
theorem C73_bytes_roundtrip_partial (bs : Str) (b : BitArr) (hf : b.Full) (hb : b.blocks = bytesToBlocks bs)
    (h8 : bs.length % 8 = 0) : bitsToBytes b = bs := by
  rw [C73_bytes_roundtrip_padded_partial bs b hf hb, h8]; simp

theorem blocks_ext {a b : List UInt64} (hl : a.length = b.length) (h : ∀ k, getBit a k = getBit b k) : a = b := by
  apply List.ext_getElem?
  intro i
  by_cases hi : i < a.length
  · have hi' : i < b.length := hl ▸ hi
    rw [List.getElem?_eq_getElem hi, List.getElem?_eq_getElem hi']
    congr 1
    rw [← UInt64.toNat_inj]
    apply Nat.eq_of_testBit_eq
    intro j
    by_cases hj : j < 64
    · have := h (i * 64 + j)
      have e1 : (i * 64 + j) / 64 = i := by omega
      have e2 : (i * 64 + j) % 64 = j := by omega
      rw [getBit, getBit, e1, e2, List.getElem?_eq_getElem hi, List.getElem?_eq_getElem hi'] at this
      simpa using this
    · have hp : (2 : Nat) ^ 64 ≤ 2 ^ j := Nat.pow_le_pow_right (by decide) (by omega)
      rw [Nat.testBit_lt_two_pow, Nat.testBit_lt_two_pow]
      · have := UInt64.toNat_lt b[i]; omega
      · have := UInt64.toNat_lt a[i]; omega
  · rw [List.getElem?_eq_none (by omega), List.getElem?_eq_none (by omega)]

/-- C73, what holds: bits to bytes to bits gives the same blocks, provided the iterator visits every block. -/
theorem C73_bits_roundtrip_partial (b : BitArr) (hf : b.Full) : bytesToBlocks (bitsToBytes b) = b.blocks := by
  have hlen : (bitsToBytes b).length = 8 * b.blocks.length := by
    rw [bitsToBytes, visited_full hf, flatMap_putUint64_length]
  apply blocks_ext
  · rw [bytesToBlocks_length, hlen]; omega
  · intro k
    rw [C73_bits_of_bytes]
    by_cases hk : k / 8 < 8 * b.blocks.length
    · have : (bitsToBytes b)[k / 8]? = some (UInt8.ofNat (((b.blocks[k / 8 / 8]?).getD 0).toNat / 2 ^ (8 * (k / 8 % 8)) % 256)) := by
        rw [bitsToBytes, visited_full hf]
        exact flatMap_putUint64_get _ _ hk
      rw [this, Option.getD_some, byte_of_block_bit _ _ _ (Nat.mod_lt _ (by decide)), getBit]
      have e1 : k / 8 / 8 = k / 64 := by omega
      have e2 : 8 * (k / 8 % 8) + k % 8 = k % 64 := by omega
      rw [e1, e2]
    · rw [List.getElem?_eq_none (by omega), getBit, List.getElem?_eq_none (by omega)]
      simp

/-- C73 violated: whatever blocks the iterator visits, the bytes produced come in eights, so no byte string of another
length survives the round trip. -/
theorem C73_violated_length (bs : Str) (b : BitArr) (h : bs.length % 8 ≠ 0) : bitsToBytes b ≠ bs := by
  intro e
  apply h
  rw [← e, bitsToBytes, flatMap_putUint64_length]
  omega

/-- C73 violated in the other direction: if the iterator starts at the lowest non-empty block (as the library does),
the bits move down. -/
theorem C73_violated_low_blocks_skipped : ∃ b : BitArr, b.start = 1 ∧ b.stop = 2 ∧ getBit b.blocks 64 = true ∧
    getBit (bytesToBlocks (bitsToBytes b)) 64 = false ∧ getBit (bytesToBlocks (bitsToBytes b)) 0 = true :=
  ⟨⟨[0, 1], 1, 2⟩, rfl, rfl, by decide +kernel, by decide +kernel, by decide +kernel⟩

example : bytesToBlocks [1, 0, 0, 0, 0, 0, 0, 128, 3] = [0x8000000000000001, 3] := by decide +kernel
example : BitArr.Full ⟨[0x8000000000000001, 3], 0, 2⟩ := ⟨rfl, rfl⟩

/-! ### Random positions -/

/-- Loop invariant of `GenerateRandomBitPositions`. -/
theorem randomPositionsLoop_inv (rnd : Nat → Nat) (numOnes : Int) :
    ∀ (fuel i : Nat) (acc r : List Nat), acc.Nodup → (∀ x ∈ acc, ∃ j < i, rnd j = x) →
      ((acc.length : Int) ≤ numOnes ∨ acc = []) →
      randomPositionsLoop rnd numOnes fuel i acc = some r →
      r.Nodup ∧ (∀ x ∈ r, ∃ j, rnd j = x) ∧ r.length = numOnes.toNat := by
  intro fuel
  induction fuel with
  | zero =>
    intro i acc r hn hm hl h
    simp only [randomPositionsLoop] at h
    split at h
    · cases h
    · cases h
      refine ⟨hn, fun x hx => ?_, ?_⟩
      · obtain ⟨j, _, e⟩ := hm x hx; exact ⟨j, e⟩
      · rcases hl with hl | hl
        · omega
        · subst hl; simp at *; omega
  | succ f ih =>
    intro i acc r hn hm hl h
    simp only [randomPositionsLoop] at h
    split at h
    · rename_i hlt
      split at h
      · exact ih _ _ _ hn (fun x hx => by obtain ⟨j, h1, h2⟩ := hm x hx; exact ⟨j, by omega, h2⟩) hl h
      · rename_i hni
        refine ih _ _ _ ?_ ?_ ?_ h
        · rw [List.nodup_append]
          refine ⟨hn, by simp, ?_⟩
          intro a ha b hb e
          simp at hb; subst hb; subst e; exact hni ha
        · intro x hx
          rcases List.mem_append.1 hx with hx | hx
          · obtain ⟨j, h1, h2⟩ := hm x hx; exact ⟨j, by omega, h2⟩
          · simp at hx; exact ⟨i, by omega, hx.symm⟩
        · left; simp; omega
    · cases h
      refine ⟨hn, fun x hx => ?_, ?_⟩
      · obtain ⟨j, _, e⟩ := hm x hx; exact ⟨j, e⟩
      · rcases hl with hl | hl
        · omega
        · subst hl; simp at *; omega

/-- C74: for every random source below `totalBits` on which it terminates, `GenerateRandomBitPositions` returns exactly
the requested number of pairwise different positions below the total. -/
theorem C74_positions (rnd : Nat → Nat) (totalBits : Nat) (numOnes : Int) (r : List Nat)
    (hr : ∀ i, rnd i < totalBits) (h : RandomPositions rnd numOnes r) :
    r.Nodup ∧ (∀ x ∈ r, x < totalBits) ∧ r.length = numOnes.toNat := by
  obtain ⟨fuel, h⟩ := h
  obtain ⟨h1, h2, h3⟩ := randomPositionsLoop_inv rnd numOnes fuel 0 [] r List.nodup_nil (by simp) (Or.inr rfl) h
  refine ⟨h1, fun x hx => ?_, h3⟩
  obtain ⟨j, e⟩ := h2 x hx
  exact e ▸ hr j

theorem nodup_lt_length : ∀ (n : Nat) (l : List Nat), l.Nodup → (∀ x ∈ l, x < n) → l.length ≤ n := by
  intro n
  induction n with
  | zero =>
    intro l _ h
    cases l with
    | nil => simp
    | cons a t => exact absurd (h a (by simp)) (by omega)
  | succ n ih =>
    intro l hn h
    have h1 := ih (l.filter (· ≠ n)) (hn.sublist List.filter_sublist) (by
      intro x hx
      have := List.mem_filter.1 hx
      have h2 := h x this.1
      have h3 : x ≠ n := by simpa using this.2
      omega)
    have h2 : l.length ≤ (l.filter (· ≠ n)).length + 1 := by
      clear ih h h1
      induction l with
      | nil => simp
      | cons a t ih =>
        rw [List.nodup_cons] at hn
        by_cases e : a = n
        · subst e
          have : t.filter (· ≠ a) = t := by
            rw [List.filter_eq_self]
            intro x hx
            simp only [ne_eq, decide_not, Bool.not_eq_eq_eq_not, Bool.not_true, decide_eq_false_iff_not]
            intro e; exact hn.1 (e ▸ hx)
          simp only [ne_eq, decide_not] at this
          simp [this]
        · have := ih hn.2
          simp only [ne_eq, decide_not] at this
          simp [e]
          omega
    omega

/-- C74, the limit of "for which it terminates": asked for more positions than there are, the loop never ends. -/
theorem C74_diverges (rnd : Nat → Nat) (totalBits : Nat) (numOnes : Int) (hr : ∀ i, rnd i < totalBits)
    (h : (totalBits : Int) < numOnes) : ¬ ∃ r, RandomPositions rnd numOnes r := by
  rintro ⟨r, hR⟩
  obtain ⟨h1, h2, h3⟩ := C74_positions rnd totalBits numOnes r hr hR
  have := nodup_lt_length totalBits r h1 h2
  omega

/-- Every value below `n` is drawn at some point from index `i` on. -/
def Covers (rnd : Nat → Nat) (n : Nat) : Prop := ∀ i, ∀ x < n, ∃ j ≥ i, rnd j = x

theorem exists_missing : ∀ (n : Nat) (l : List Nat), l.length < n → ∃ x < n, x ∉ l := by
  intro n l h
  apply Classical.byContradiction
  intro hc
  have hall : ∀ x < n, x ∈ l := fun x hx => Classical.byContradiction fun hn => hc ⟨x, hx, hn⟩
  have : ∀ (m : List Nat), m.Nodup → (∀ x ∈ m, x ∈ l) → m.length ≤ l.length := by
    intro m
    clear h hc hall
    induction m generalizing l with
    | nil => simp
    | cons a t ih =>
      intro hn hs
      rw [List.nodup_cons] at hn
      have ha : a ∈ l := hs a (by simp)
      have := ih (l.erase a) hn.2 (by
        intro x hx
        have hxa : x ≠ a := fun e => hn.1 (e ▸ hx)
        exact (List.mem_erase_of_ne hxa).2 (hs x (by simp [hx])))
      rw [List.length_erase_of_mem ha] at this
      have hpos := List.length_pos_of_mem ha
      simp; omega
  have := this (List.range n) List.nodup_range (by intro x hx; exact hall x (List.mem_range.1 hx))
  simp at this
  omega

theorem randomPositionsLoop_terminates (rnd : Nat → Nat) (n : Nat) (numOnes : Int) (hc : Covers rnd n)
    (hle : numOnes ≤ n) : ∀ (d : Nat) (i : Nat) (acc : List Nat), numOnes.toNat - acc.length ≤ d →
      ∃ fuel r, randomPositionsLoop rnd numOnes fuel i acc = some r := by
  intro d
  induction d with
  | zero =>
    intro i acc h
    refine ⟨0, acc, ?_⟩
    simp only [randomPositionsLoop]
    rw [if_neg (by omega)]
  | succ d ih =>
    intro i acc h
    by_cases hlt : (acc.length : Int) < numOnes
    · obtain ⟨x, hx, hni⟩ := exists_missing n acc (by omega)
      obtain ⟨j, hj, ej⟩ := hc i x hx
      -- run until the first draw that is not in `acc`
      have step : ∀ (k i : Nat), i + k = j → ∃ fuel r, randomPositionsLoop rnd numOnes fuel i acc = some r := by
        intro k
        induction k with
        | zero =>
          intro i hi
          obtain ⟨f, r, hr⟩ := ih (i + 1) (acc ++ [rnd i]) (by simp; omega)
          refine ⟨f + 1, r, ?_⟩
          simp only [randomPositionsLoop]
          have hij : i = j := by omega
          rw [if_pos hlt, if_neg (by rw [hij, ej]; exact hni)]
          exact hr
        | succ k ihk =>
          intro i hi
          by_cases hm : rnd i ∈ acc
          · obtain ⟨f, r, hr⟩ := ihk (i + 1) (by omega)
            refine ⟨f + 1, r, ?_⟩
            simp only [randomPositionsLoop]
            rw [if_pos hlt, if_pos hm]; exact hr
          · obtain ⟨f, r, hr⟩ := ih (i + 1) (acc ++ [rnd i]) (by simp; omega)
            refine ⟨f + 1, r, ?_⟩
            simp only [randomPositionsLoop]
            rw [if_pos hlt, if_neg hm]; exact hr
      obtain ⟨k, hk⟩ := Nat.exists_eq_add_of_le hj
      exact step k i hk.symm
    · exact ⟨0, acc, by simp only [randomPositionsLoop]; rw [if_neg hlt]⟩

/-- C74: a random source that keeps hitting every value lets the loop terminate whenever at most `totalBits` positions
are requested. -/
theorem C74_terminates (rnd : Nat → Nat) (totalBits : Nat) (numOnes : Int) (hc : Covers rnd totalBits)
    (hle : numOnes ≤ totalBits) : ∃ r, RandomPositions rnd numOnes r := by
  obtain ⟨f, r, h⟩ := randomPositionsLoop_terminates rnd totalBits numOnes hc hle _ 0 [] (Nat.le_refl _)
  exact ⟨r, f, h⟩

example : RandomPositions (fun i => i * i % 7) 3 [0, 1, 4] := ⟨10, by decide⟩
example : Covers (fun i => i % 5) 5 := by
  intro i x hx
  exact ⟨5 * i + x, by omega, by show (5 * i + x) % 5 = x; omega⟩

/-- The latency drawn before each answer lies in the configured range. -/
theorem C74_latency_in_range (draw : Nat → Int) (min max : Int) (fuel i : Nat) (v : Int)
    (h : randomLatencyLoop draw min max fuel i = some v) : min ≤ v ∧ v < max := by
  induction fuel generalizing i with
  | zero => cases h
  | succ f ih =>
    simp only [randomLatencyLoop] at h
    split at h
    · rename_i hc; cases h; exact hc
    · exact ih _ h

example : randomLatencyLoop (fun i => 300 - 20 * i) 0 290 5 0 = some 280 := by decide

/-! ### C101: recognising the owner -/

theorem beforeColon_host (h p : Str) (hc : (58 : UInt8) ∉ h) : beforeColon (h ++ go!":" ++ p) = h := by
  unfold beforeColon
  induction h with
  | nil => rfl
  | cons a t ih =>
    rw [List.mem_cons, not_or] at hc
    have : a ≠ 58 := fun e => hc.1 e.symm
    simp only [List.cons_append, List.takeWhile_cons, ne_eq, this, not_false_eq_true, decide_true, if_true]
    rw [ih hc.2]

theorem strContains_false (sub : Str) (a : UInt8) : ∀ s : Str, a ∉ s → strContains s (a :: sub) = false
  | [], _ => by simp [strContains]
  | b :: t, h => by
    rw [List.mem_cons, not_or] at h
    simp only [strContains, List.isPrefixOf, strContains_false sub a t h.2, Bool.or_false, Bool.and_eq_false_imp, beq_iff_eq]
    exact fun e => absurd e h.1

/-- C101, for host names and IPv4 addresses (no bracket in either address): a caller is taken for the owner exactly when the
host before the port is the owner's, whatever the ports. Missing: the two theorems below. -/
theorem C101_same_host_partial (h p h' p' : Str) (hc : (58 : UInt8) ∉ h) (hc' : (58 : UInt8) ∉ h') (hb : (91 : UInt8) ∉ h)
    (hb' : (91 : UInt8) ∉ h' ++ p') : isOwner (h ++ go!":" ++ p) (h' ++ go!":" ++ p') = true ↔ h = h' := by
  rw [List.mem_append, not_or] at hb'
  have hn : strContains (h' ++ go!":" ++ p') (go!"[::1]") = false := by
    apply strContains_false
    simp only [List.mem_append, not_or]
    exact ⟨⟨hb'.1, by decide⟩, hb'.2⟩
  have e1 : h ≠ go!"[::1]" := fun e => hb (by rw [e]; decide)
  have e2 : h' ≠ go!"[::1]" := fun e => hb'.1 (by rw [e]; decide)
  unfold isOwner
  simp only [hn, beforeColon_host h p hc, beforeColon_host h' p' hc', e1, e2, or_false, Bool.false_eq_true, if_false]
  split
  · rename_i e; simp [e.1, e.2]
  · simp

/-- C101 is false: every address that contains "[::1]" anywhere is taken for the owner. -/
theorem C101_violated_contains (owner a b : Str) : isOwner owner (a ++ go!"[::1]" ++ b) = true := by
  have : ∀ a : Str, strContains (a ++ go!"[::1]" ++ b) (go!"[::1]") = true := by
    intro a
    induction a with
    | nil =>
      simp only [List.nil_append, List.cons_append, strContains, List.isPrefixOf]
      simp
    | cons x t ih =>
      simp only [List.cons_append, strContains]
      rw [ih, Bool.or_true]
  unfold isOwner
  rw [if_pos (this a)]

/-- C101 is false: two IPv6 hosts with the same first group are taken for one. -/
theorem C101_violated_ipv6 :
    isOwner (go!"[fe80::1]:3000") (go!"[fe80::2]:3000") = true ∧ (go!"[fe80::1]:3000") ≠ go!"[fe80::2]:3000" := by decide

/-- C101: a machine with two gossipers, and another machine. -/
example : isOwner (go!"10.0.0.1" ++ go!":" ++ go!"3000") (go!"10.0.0.1" ++ go!":" ++ go!"4000") = true ∧
    isOwner (go!"10.0.0.1" ++ go!":" ++ go!"3000") (go!"10.0.0.2" ++ go!":" ++ go!"3000") = false ∧
    (58 : UInt8) ∉ (go!"10.0.0.1" : Str) ∧ (91 : UInt8) ∉ (go!"10.0.0.1" : Str) := by decide

end CTng
