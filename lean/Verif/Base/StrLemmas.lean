import Verif.Model.Crypto
/- Lemmas about byte strings: the byte order is a linear order, sorting is canonical, hex round-trips. -/
set_option autoImplicit false

namespace CTng

theorem u8_trichotomy (a b : UInt8) : a < b ∨ a = b ∨ b < a := by
  simp only [UInt8.lt_iff_toNat_lt, ← UInt8.toNat_inj]
  omega

theorem Str.le_refl : ∀ a : Str, Str.le a a = true
  | [] => rfl
  | a :: t => by
    have : ¬ a < a := by simp
    simp [Str.le, this, Str.le_refl t]

theorem Str.le_antisymm : ∀ {a b : Str}, Str.le a b = true → Str.le b a = true → a = b
  | [], [], _, _ => rfl
  | [], _ :: _, _, h => by simp [Str.le] at h
  | _ :: _, [], h, _ => by simp [Str.le] at h
  | a :: t, b :: u, h1, h2 => by
    rcases u8_trichotomy a b with h | h | h
    · have h' : ¬ b < a := UInt8.lt_asymm h
      simp [Str.le, h, h'] at h2
    · subst h
      have h' : ¬ a < a := by simp
      simp [Str.le, h'] at h1 h2
      rw [Str.le_antisymm h1 h2]
    · have h' : ¬ a < b := UInt8.lt_asymm h
      simp [Str.le, h, h'] at h1

theorem Str.le_trans : ∀ {a b c : Str}, Str.le a b = true → Str.le b c = true → Str.le a c = true
  | [], _, _, _, _ => by simp [Str.le]
  | _ :: _, [], _, h, _ => by simp [Str.le] at h
  | _ :: _, _ :: _, [], _, h => by simp [Str.le] at h
  | a :: t, b :: u, c :: v, h1, h2 => by
    rcases u8_trichotomy a b with h | h | h
    · rcases u8_trichotomy b c with k | k | k
      · have := UInt8.lt_trans h k
        simp [Str.le, this]
      · subst k; simp [Str.le, h]
      · have k' : ¬ b < c := UInt8.lt_asymm k
        simp [Str.le, k, k'] at h2
    · subst h
      have h' : ¬ a < a := by simp
      simp [Str.le, h'] at h1
      rcases u8_trichotomy a c with k | k | k
      · simp [Str.le, k]
      · subst k
        simp [Str.le, h'] at h2 ⊢
        exact Str.le_trans h1 h2
      · have k' : ¬ a < c := UInt8.lt_asymm k
        simp [Str.le, k, k'] at h2
    · have h' : ¬ a < b := UInt8.lt_asymm h
      simp [Str.le, h, h'] at h1

theorem Str.le_total : ∀ a b : Str, Str.le a b = true ∨ Str.le b a = true
  | [], _ => by simp [Str.le]
  | _ :: _, [] => by simp [Str.le]
  | a :: t, b :: u => by
    rcases u8_trichotomy a b with h | h | h
    · simp [Str.le, h]
    · subst h
      have h' : ¬ a < a := by simp
      simp only [Str.le, h', if_false]
      exact Str.le_total t u
    · simp [Str.le, h]

theorem insertStr_perm (a : Str) (l : List Str) : (insertStr a l).Perm (a :: l) := by
  induction l with
  | nil => exact .refl _
  | cons b t ih =>
    simp only [insertStr]
    split
    · exact .refl _
    · exact (ih.cons b).trans (.swap _ _ _)

theorem sortStr_perm (l : List Str) : (sortStr l).Perm l := by
  induction l with
  | nil => exact .refl _
  | cons a t ih => exact (insertStr_perm a _).trans (ih.cons a)

theorem insertStr_sorted (a : Str) (l : List Str) (h : l.Pairwise (fun x y => Str.le x y = true)) :
    (insertStr a l).Pairwise (fun x y => Str.le x y = true) := by
  induction l with
  | nil => simp [insertStr]
  | cons b t ih =>
    rw [List.pairwise_cons] at h
    simp only [insertStr]
    split
    · rename_i hab
      rw [List.pairwise_cons, List.pairwise_cons]
      refine ⟨?_, h⟩
      intro y hy
      rcases List.mem_cons.1 hy with rfl | hy
      · exact hab
      · exact Str.le_trans hab (h.1 y hy)
    · rename_i hab
      have hba : Str.le b a = true := (Str.le_total b a).resolve_right hab
      rw [List.pairwise_cons]
      refine ⟨?_, ih h.2⟩
      intro y hy
      rcases List.mem_cons.1 ((insertStr_perm a t).mem_iff.1 hy) with rfl | hy
      · exact hba
      · exact h.1 y hy

theorem sortStr_sorted (l : List Str) : (sortStr l).Pairwise (fun x y => Str.le x y = true) := by
  induction l with
  | nil => exact .nil
  | cons a t ih => exact insertStr_sorted a _ ih

theorem eq_of_perm_sorted : ∀ {l m : List Str}, l.Perm m → l.Pairwise (fun x y => Str.le x y = true) →
    m.Pairwise (fun x y => Str.le x y = true) → l = m := by
  intro l
  induction l with
  | nil => intro m h _ _; exact (List.nil_perm.1 h).symm
  | cons a t ih =>
    intro m h hl hm
    cases m with
    | nil => exact absurd h.symm (by simp)
    | cons b u =>
      rw [List.pairwise_cons] at hl hm
      have ha : a ∈ b :: u := h.mem_iff.1 (by simp)
      have hb : b ∈ a :: t := h.mem_iff.2 (by simp)
      have : a = b := by
        rcases List.mem_cons.1 ha with e | ha
        · exact e
        · rcases List.mem_cons.1 hb with e | hb
          · exact e.symm
          · exact Str.le_antisymm (hl.1 b hb) (hm.1 a ha)
      subst this
      rw [ih (h.cons_inv) hl.2 hm.2]

/-- Sorting depends only on the multiset of strings. -/
theorem sortStr_eq_iff_perm (l m : List Str) : sortStr l = sortStr m ↔ l.Perm m := by
  constructor
  · intro h
    exact (sortStr_perm l).symm.trans (h ▸ sortStr_perm m)
  · intro h
    exact eq_of_perm_sorted (((sortStr_perm l).trans h).trans (sortStr_perm m).symm) (sortStr_sorted _)
      (sortStr_sorted _)

theorem sortStr_of_sorted {l : List Str} (h : l.Pairwise (fun x y => Str.le x y = true)) : sortStr l = l :=
  eq_of_perm_sorted (sortStr_perm l) (sortStr_sorted _) h

theorem forall_uint8 {p : UInt8 → Prop} (h : ∀ n : Fin 256, p (UInt8.ofNat n)) (b : UInt8) : p b := by
  have := h ⟨b.toNat, b.toNat_lt⟩
  simpa using this

/-- A character that hex digits are made of. -/
def isHexChar (c : UInt8) : Bool := (48 ≤ c && c ≤ 57) || (97 ≤ c && c ≤ 102)

set_option maxRecDepth 10000 in
theorem hexDigit_spec (b : UInt8) :
    isHexChar (hexDigit (b / 16)) = true ∧ isHexChar (hexDigit (b % 16)) = true ∧
    fromHexDigit (hexDigit (b / 16)) = some (b / 16) ∧ fromHexDigit (hexDigit (b % 16)) = some (b % 16) ∧
    b / 16 * 16 + b % 16 = b :=
  forall_uint8 (p := fun b => isHexChar (hexDigit (b / 16)) = true ∧ isHexChar (hexDigit (b % 16)) = true ∧
    fromHexDigit (hexDigit (b / 16)) = some (b / 16) ∧ fromHexDigit (hexDigit (b % 16)) = some (b % 16) ∧
    b / 16 * 16 + b % 16 = b) (by decide +kernel) b

theorem hexDecode_encode : ∀ s : Str, hexDecode (hexEncode s) = some s
  | [] => rfl
  | b :: t => by
    obtain ⟨_, _, h3, h4, h5⟩ := hexDigit_spec b
    simp [hexEncode, hexDecode, h3, h4, h5, hexDecode_encode t]

theorem hexEncode_chars : ∀ (s : Str) (c : UInt8), c ∈ hexEncode s → isHexChar c = true
  | [], _, h => by simp [hexEncode] at h
  | b :: t, c, h => by
    obtain ⟨h1, h2, _⟩ := hexDigit_spec b
    simp only [hexEncode, List.mem_cons] at h
    rcases h with rfl | rfl | h
    · exact h1
    · exact h2
    · exact hexEncode_chars t c h

theorem hexEncode_inj {a b : Str} (h : hexEncode a = hexEncode b) : a = b := by
  have := hexDecode_encode a
  rw [h, hexDecode_encode] at this
  exact (Option.some.inj this).symm

theorem hexEncode_length (s : Str) : (hexEncode s).length = 2 * s.length := by
  induction s with
  | nil => rfl
  | cons b t ih => simp [hexEncode, ih]; omega

end CTng
