import Verif.Spec.JsonGrammar
import Verif.Proofs.Utf8
/-
The reader of `Model/Json.lean` accepts exactly the texts of the grammar in `Spec/JsonGrammar.lean`, with the values it gives them.
-/
set_option autoImplicit false

namespace CTng.Json
open Wire

/-! ### Characters -/

theorem u8_ofNat (a : UInt8) (n : Nat) (h : a.toNat = n) : a = UInt8.ofNat n := by rw [← h]; simp

theorem rune_enc {n : Nat} {u : Str} (h : Rune n u) : u = utf8Enc n := by
  cases h with
  | one a h1 h2 => simp only [utf8Enc, h1, if_true, u8_ofNat a n h2]
  | two a b h1 h2 h3 h4 =>
    have e1 : ¬ n < 0x80 := by omega
    simp only [utf8Enc, e1, h2, if_true, if_false, u8_ofNat _ _ h3, u8_ofNat _ _ h4]
  | three a b c h1 h2 h0 h3 h4 h5 =>
    have e1 : ¬ n < 0x80 := by omega
    have e2 : ¬ n < 0x800 := by omega
    have e3 : ¬ ((0xD800 ≤ n ∧ n < 0xE000) ∨ 0x10FFFF < n) := by omega
    simp only [utf8Enc, e1, e2, e3, h2, if_true, if_false, u8_ofNat _ _ h3, u8_ofNat _ _ h4, u8_ofNat _ _ h5]
  | four a b c d h1 h2 h3 h4 h5 h6 =>
    have e1 : ¬ n < 0x80 := by omega
    have e2 : ¬ n < 0x800 := by omega
    have e3 : ¬ ((0xD800 ≤ n ∧ n < 0xE000) ∨ 0x10FFFF < n) := by omega
    have e4 : ¬ n < 0x10000 := by omega
    simp only [utf8Enc, e1, e2, e3, e4, if_false, u8_ofNat _ _ h3, u8_ofNat _ _ h4, u8_ofNat _ _ h5, u8_ofNat _ _ h6]

theorem rune_utf8Enc (n : Nat) (h : n < 0x110000) (hs : ¬ (0xD800 ≤ n ∧ n < 0xE000)) : Rune n (utf8Enc n) := by
  unfold utf8Enc
  by_cases h1 : n < 0x80
  · rw [if_pos h1]; exact .one n _ h1 (ofNat_toNat _ (by omega))
  rw [if_neg h1]
  by_cases h2 : n < 0x800
  · rw [if_pos h2]
    exact .two n _ _ (by omega) h2 (ofNat_toNat _ (by omega)) (ofNat_toNat _ (by omega))
  rw [if_neg h2, if_neg (by omega)]
  by_cases h3 : n < 0x10000
  · rw [if_pos h3]
    exact .three n _ _ _ (by omega) h3 hs (ofNat_toNat _ (by omega)) (ofNat_toNat _ (by omega)) (ofNat_toNat _ (by omega))
  · rw [if_neg h3]
    exact .four n _ _ _ _ (by omega) h (ofNat_toNat _ (by omega)) (ofNat_toNat _ (by omega)) (ofNat_toNat _ (by omega))
      (ofNat_toNat _ (by omega))

theorem cont_iff (c : UInt8) : cont c = true ↔ 128 ≤ c.toNat ∧ c.toNat ≤ 191 := by
  simp only [cont, Bool.and_eq_true, decide_eq_true_eq, UInt8.le_iff_toNat_le]
  rfl

/-- A rune is recognised. -/
theorem rune_len {n : Nat} {u : Str} (h : Rune n u) (r : Str) : runeLen (u ++ r) = u.length := by
  obtain ⟨c, t, e, ht⟩ := runeBytes_utf8Enc n
  rw [rune_enc h, e]
  exact ht r

/-- What is recognised is a rune. -/
theorem rune_of_len (c : UInt8) (t : Str) (k : Nat) (h : runeLen (c :: t) = k + 1) : ∃ n, Rune n (c :: t.take k) := by
  simp only [runeLen] at h
  simp only [UInt8.lt_iff_toNat_lt, UInt8.le_iff_toNat_le] at h
  simp only [show (128 : UInt8).toNat = 128 from rfl, show (194 : UInt8).toNat = 194 from rfl, show (223 : UInt8).toNat = 223 from rfl,
    show (224 : UInt8).toNat = 224 from rfl, show (239 : UInt8).toNat = 239 from rfl, show (240 : UInt8).toNat = 240 from rfl,
    show (244 : UInt8).toNat = 244 from rfl] at h
  by_cases h1 : c.toNat < 128
  · rw [if_pos h1] at h
    obtain rfl : k = 0 := by omega
    exact ⟨_, .one c.toNat c h1 rfl⟩
  rw [if_neg h1] at h
  by_cases h2 : 194 ≤ c.toNat ∧ c.toNat ≤ 223
  · rw [if_pos h2] at h
    split at h
    · rename_i ht
      obtain rfl : k = 1 := by omega
      match t, ht with
      | a :: t, ht =>
        have ha := (cont_iff a).1 ht
        exact ⟨_, .two ((c.toNat - 192) * 64 + (a.toNat - 128)) c a (by omega) (by omega) (by omega) (by omega)⟩
    · cases h
  rw [if_neg h2] at h
  by_cases h3 : 224 ≤ c.toNat ∧ c.toNat ≤ 239
  · rw [if_pos h3] at h
    split at h
    · rename_i ht
      obtain rfl : k = 2 := by omega
      match t, ht with
      | a :: b :: t, ht =>
        simp only [tail3, Bool.and_eq_true] at ht
        obtain ⟨ha, hb⟩ := ht
        have hb := (cont_iff b).1 hb
        have ha' : 128 ≤ a.toNat ∧ a.toNat ≤ 191 ∧ (c.toNat = 224 → 160 ≤ a.toNat) ∧ (c.toNat = 237 → a.toNat ≤ 159) := by
          unfold second3 at ha
          split at ha
          · rename_i hc; subst hc
            simp only [Bool.and_eq_true, decide_eq_true_eq, UInt8.le_iff_toNat_le] at ha
            have := ha.1; have := ha.2
            refine ⟨?_, ?_, fun _ => ?_, fun h => absurd h (by decide)⟩ <;> simp_all <;> omega
          · split at ha
            · rename_i hc; subst hc
              simp only [Bool.and_eq_true, decide_eq_true_eq, UInt8.le_iff_toNat_le] at ha
              have := ha.1; have := ha.2
              refine ⟨?_, ?_, fun h => absurd h (by decide), fun _ => ?_⟩ <;> simp_all <;> omega
            · rename_i n1 n2
              have := (cont_iff a).1 ha
              exact ⟨this.1, this.2, fun h => absurd (u8_ofNat c 224 h) n1, fun h => absurd (u8_ofNat c 237 h) n2⟩
        exact ⟨_, .three ((c.toNat - 224) * 4096 + (a.toNat - 128) * 64 + (b.toNat - 128)) c a b (by omega) (by omega) (by omega) (by omega)
          (by omega) (by omega)⟩
    · cases h
  rw [if_neg h3] at h
  by_cases h4 : 240 ≤ c.toNat ∧ c.toNat ≤ 244
  · rw [if_pos h4] at h
    split at h
    · rename_i ht
      obtain rfl : k = 3 := by omega
      match t, ht with
      | a :: b :: d :: t, ht =>
        simp only [tail4, Bool.and_eq_true] at ht
        obtain ⟨⟨ha, hb⟩, hd⟩ := ht
        have hb := (cont_iff b).1 hb
        have hd := (cont_iff d).1 hd
        have ha' : 128 ≤ a.toNat ∧ a.toNat ≤ 191 ∧ (c.toNat = 240 → 144 ≤ a.toNat) ∧ (c.toNat = 244 → a.toNat ≤ 143) := by
          unfold second4 at ha
          split at ha
          · rename_i hc; subst hc
            simp only [Bool.and_eq_true, decide_eq_true_eq, UInt8.le_iff_toNat_le] at ha
            have := ha.1; have := ha.2
            refine ⟨?_, ?_, fun _ => ?_, fun h => absurd h (by decide)⟩ <;> simp_all <;> omega
          · split at ha
            · rename_i hc; subst hc
              simp only [Bool.and_eq_true, decide_eq_true_eq, UInt8.le_iff_toNat_le] at ha
              have := ha.1; have := ha.2
              refine ⟨?_, ?_, fun h => absurd h (by decide), fun _ => ?_⟩ <;> simp_all <;> omega
            · rename_i n1 n2
              have := (cont_iff a).1 ha
              exact ⟨this.1, this.2, fun h => absurd (u8_ofNat c 240 h) n1, fun h => absurd (u8_ofNat c 244 h) n2⟩
        exact ⟨_, .four ((c.toNat - 240) * 262144 + (a.toNat - 128) * 4096 + (b.toNat - 128) * 64 + (d.toNat - 128)) c a b d (by omega)
          (by omega) (by omega) (by omega) (by omega) (by omega)⟩
    · cases h
  · rw [if_neg h4] at h; cases h

theorem rune_ne_nil {n : Nat} {u : Str} (h : Rune n u) : u ≠ [] := by cases h <;> simp

/-- No rune starts where none is recognised. -/
theorem no_rune {s : Str} (h : runeLen s = 0) (n : Nat) (u : Str) (hu : Rune n u) : ¬ u <+: s := by
  rintro ⟨r, rfl⟩
  rw [rune_len hu r] at h
  exact rune_ne_nil hu (List.length_eq_zero_iff.1 h)

/-- The first byte of a rune of more than one byte and the bytes after it are not ASCII. -/
theorem rune_high {n : Nat} {u : Str} (h : Rune n u) (hn : 128 ≤ n) : ∀ c ∈ u, 128 ≤ c.toNat := by
  intro c hc
  cases h with
  | one a h1 h2 => omega
  | two a b h1 h2 h3 h4 => simp at hc; rcases hc with rfl | rfl <;> omega
  | three a b c h1 h2 h0 h3 h4 h5 => simp at hc; rcases hc with rfl | rfl | rfl <;> omega
  | four a b c d h1 h2 h3 h4 h5 h6 => simp at hc; rcases hc with rfl | rfl | rfl | rfl <;> omega

theorem rune_low {n : Nat} {c : UInt8} {t : Str} (h : Rune n (c :: t)) (hn : n < 128) : c.toNat = n := by
  generalize hu : c :: t = u at h
  cases h with
  | one a h1 h2 => cases hu; exact h2
  | two a b h1 => omega
  | three a b c h1 => omega
  | four a b c d h1 => omega

theorem prefix_before {q : UInt8} {r : Str} : ∀ {p t : Str}, p <+: t ++ q :: r → q ∉ p → p <+: t
  | [], _, _, _ => List.nil_prefix
  | a :: p, [], h, hq => by
    obtain ⟨x, hx⟩ := h
    simp at hx
    exact absurd (by rw [hx.1]; simp) hq
  | a :: p, b :: t, h, hq => by
    obtain ⟨x, hx⟩ := h
    simp at hx
    obtain ⟨rfl, hx⟩ := hx
    have := prefix_before (p := p) (t := t) (r := r) ⟨x, hx⟩ (by intro h; exact hq (by simp [h]))
    obtain ⟨y, hy⟩ := this
    exact ⟨y, by rw [← hy]; rfl⟩

theorem hexDig_of {c v : UInt8} (h : fromHexDigit c = some v) : HexDig c v.toNat := by
  unfold fromHexDigit at h
  simp only [UInt8.le_iff_toNat_le] at h
  unfold HexDig
  split at h
  · rename_i hc; cases h
    left
    refine ⟨hc.1, hc.2, ?_⟩
    rw [UInt8.toNat_sub_of_le _ _ (by rw [UInt8.le_iff_toNat_le]; exact hc.1)]; rfl
  · split at h
    · rename_i hc; cases h
      right; left
      refine ⟨hc.1, hc.2, ?_⟩
      rw [UInt8.toNat_sub_of_le _ _ (by rw [UInt8.le_iff_toNat_le]; exact Nat.le_trans (by decide) hc.1)]; rfl
    · split at h
      · rename_i hc; cases h
        right; right
        refine ⟨hc.1, hc.2, ?_⟩
        rw [UInt8.toNat_sub_of_le _ _ (by rw [UInt8.le_iff_toNat_le]; exact Nat.le_trans (by decide) hc.1)]; rfl
      · cases h

theorem hexDig_to {c : UInt8} {n : Nat} (h : HexDig c n) : ∃ v : UInt8, fromHexDigit c = some v ∧ v.toNat = n := by
  unfold fromHexDigit
  simp only [UInt8.le_iff_toNat_le]
  rcases h with ⟨h1, h2, h3⟩ | ⟨h1, h2, h3⟩ | ⟨h1, h2, h3⟩
  · rw [if_pos ⟨h1, h2⟩]
    refine ⟨_, rfl, ?_⟩
    rw [h3, UInt8.toNat_sub_of_le _ _ (by rw [UInt8.le_iff_toNat_le]; exact h1)]; rfl
  · rw [if_neg (by rintro ⟨_, h⟩; exact absurd (Nat.le_trans h1 h) (by decide)), if_pos ⟨h1, h2⟩]
    refine ⟨_, rfl, ?_⟩
    rw [h3, UInt8.toNat_sub_of_le _ _ (by rw [UInt8.le_iff_toNat_le]; exact Nat.le_trans (by decide) h1)]; rfl
  · rw [if_neg (by rintro ⟨_, h⟩; exact absurd (Nat.le_trans h1 h) (by decide)),
      if_neg (by rintro ⟨h, _⟩; exact absurd (Nat.le_trans h h2) (by decide)), if_pos ⟨h1, h2⟩]
    refine ⟨_, rfl, ?_⟩
    rw [h3, UInt8.toNat_sub_of_le _ _ (by rw [UInt8.le_iff_toNat_le]; exact Nat.le_trans (by decide) h1)]; rfl

theorem hex4_of {s r : Str} {n : Nat} (h : hex4 s = some (n, r)) : ∃ x, s = x ++ r ∧ Hex4 x n := by
  unfold hex4 at h
  split at h
  · rename_i a b c d t
    split at h
    · rename_i w x y z ha hb hc hd
      cases h
      exact ⟨[a, b, c, d], rfl, a, b, c, d, _, _, _, _, rfl, hexDig_of ha, hexDig_of hb, hexDig_of hc, hexDig_of hd, rfl⟩
    · cases h
  · cases h

theorem hex4_to {x : Str} {n : Nat} (h : Hex4 x n) (r : Str) : hex4 (x ++ r) = some (n, r) := by
  obtain ⟨a, b, c, d, w, x, y, z, rfl, ha, hb, hc, hd, rfl⟩ := h
  obtain ⟨_, e1, rfl⟩ := hexDig_to ha
  obtain ⟨_, e2, rfl⟩ := hexDig_to hb
  obtain ⟨_, e3, rfl⟩ := hexDig_to hc
  obtain ⟨_, e4, rfl⟩ := hexDig_to hd
  exact hex4_lit _ _ _ _ _ _ _ _ _ _ e1 e2 e3 e4 rfl

theorem hexDig_ne_quote {c : UInt8} {n : Nat} (h : HexDig c n) : c ≠ 34 := by
  rintro rfl
  have : (34 : UInt8).toNat = 34 := rfl
  unfold HexDig at h; omega

theorem hex4_no_quote {x : Str} {n : Nat} (h : Hex4 x n) : 34 ∉ x := by
  obtain ⟨a, b, c, d, w, x, y, z, rfl, ha, hb, hc, hd, rfl⟩ := h
  intro h
  simp at h
  rcases h with h | h | h | h
  · exact hexDig_ne_quote ha h.symm
  · exact hexDig_ne_quote hb h.symm
  · exact hexDig_ne_quote hc h.symm
  · exact hexDig_ne_quote hd h.symm

theorem hex4_lt {x : Str} {n : Nat} (h : Hex4 x n) : n < 65536 := by
  obtain ⟨a, b, c, d, w, x, y, z, rfl, ha, hb, hc, hd, rfl⟩ := h
  unfold HexDig at ha hb hc hd; omega

theorem hex4_length {x : Str} {n : Nat} (h : Hex4 x n) : x.length = 4 := by
  obtain ⟨a, b, c, d, w, x, y, z, rfl, ha, hb, hc, hd, rfl⟩ := h; rfl

theorem lowHalf_of {s r : Str} {n : Nat} (h : lowHalf s = some (n, r)) :
    ∃ x, s = 92 :: 117 :: (x ++ r) ∧ Hex4 x n ∧ 0xDC00 ≤ n ∧ n < 0xE000 := by
  unfold lowHalf at h
  split at h
  · rename_i t
    split at h
    · rename_i m r' hm
      split at h
      · rename_i hb
        cases h
        obtain ⟨x, rfl, hx⟩ := hex4_of hm
        exact ⟨x, rfl, hx, hb⟩
      · cases h
    · cases h
  · cases h

theorem lowHalf_to {x : Str} {n : Nat} (h : Hex4 x n) (h1 : 0xDC00 ≤ n) (h2 : n < 0xE000) (r : Str) :
    lowHalf (92 :: 117 :: (x ++ r)) = some (n, r) := by
  simp only [lowHalf, hex4_to h r]
  rw [if_pos ⟨h1, h2⟩]

theorem lowHalf_none {t r : Str} (h : ∀ l b, Hex4 l b → 0xDC00 ≤ b → b < 0xE000 → ¬ (92 :: 117 :: l) <+: t) :
    lowHalf (t ++ 34 :: r) = none := by
  cases hl : lowHalf (t ++ 34 :: r) with
  | none => rfl
  | some x =>
    obtain ⟨n, r'⟩ := x
    obtain ⟨x, he, hx, h1, h2⟩ := lowHalf_of hl
    refine absurd (prefix_before (q := 34) (r := r) (p := 92 :: 117 :: x) ⟨r', ?_⟩ ?_) (h x n hx h1 h2)
    · rw [he]; rfl
    · intro hm
      simp at hm
      exact hex4_no_quote hx hm

/-- One step of the reader inside a string. -/
theorem chars_step {s b u t r : Str} (h : chunk s = some (b, u ++ 34 :: r)) (hu : Chars u t)
    (hq : s.head? ≠ some 34) : ∃ v, s = v ++ 34 :: r ∧ Chars v (b ++ t) := by
  cases s with
  | nil => cases h
  | cons c s =>
    simp only [chunk] at h
    split at h
    · rename_i hc; subst hc
      cases s with
      | nil => cases h
      | cons c s =>
        simp only [escape] at h
        have short : ∀ d : UInt8, (c, d) ∈ shortEscapes → some ([d], s) = some (b, u ++ 34 :: r) →
            ∃ v, 92 :: c :: s = v ++ 34 :: r ∧ Chars v (b ++ t) := by
          intro d hd he
          cases he
          exact ⟨92 :: c :: u, rfl, .short c d u t hd hu⟩
        split at h
        · rename_i hc
          refine short c ?_ h
          rcases hc with rfl | rfl | rfl <;> decide
        split at h
        · rename_i hc; subst hc; exact short _ (by decide) h
        split at h
        · rename_i hc; subst hc; exact short _ (by decide) h
        split at h
        · rename_i hc; subst hc; exact short _ (by decide) h
        split at h
        · rename_i hc; subst hc; exact short _ (by decide) h
        split at h
        · rename_i hc; subst hc; exact short _ (by decide) h
        split at h
        · rename_i hc; subst hc
          cases hx : hex4 s with
          | none => rw [hx] at h; cases h
          | some y =>
            obtain ⟨n, r1⟩ := y
            rw [hx] at h
            simp only at h
            obtain ⟨x, rfl, hx4⟩ := hex4_of hx
            split at h
            · rename_i hs
              split at h
              · rename_i m r' hlow
                simp only [Option.some.injEq, Prod.mk.injEq] at h
                obtain ⟨rfl, rfl⟩ := h
                split at hlow
                · rename_i hn
                  obtain ⟨l, rfl, hl, h1, h2⟩ := lowHalf_of hlow
                  exact ⟨92 :: 117 :: (x ++ (92 :: 117 :: (l ++ u))), by simp, .pair x l n m _ u t hx4 hl hs.1 hn h1 h2
                    (rune_utf8Enc _ (by omega) (by omega)) hu⟩
                · cases hlow
              · rename_i hlow
                simp only [Option.some.injEq, Prod.mk.injEq] at h
                obtain ⟨rfl, rfl⟩ := h
                refine ⟨92 :: 117 :: (x ++ u), by simp, .lone x n u t hx4 hs.1 hs.2 ?_ hu⟩
                intro hn l d hl h1 h2 hp
                rw [if_pos hn] at hlow
                obtain ⟨y, rfl⟩ := hp
                have : (92 :: 117 :: l ++ y) ++ 34 :: r = 92 :: 117 :: (l ++ (y ++ 34 :: r)) := by simp
                rw [this, lowHalf_to hl h1 h2] at hlow
                cases hlow
            · rename_i hs
              simp only [Option.some.injEq, Prod.mk.injEq] at h
              obtain ⟨rfl, rfl⟩ := h
              exact ⟨92 :: 117 :: (x ++ u), by simp, .uni x n _ u t hx4 (rune_utf8Enc _ (by have := hex4_lt hx4; omega) hs) hu⟩
        · cases h
    · rename_i hc
      split at h
      · cases h
      · rename_i h32
        simp only [UInt8.lt_iff_toNat_lt] at h32
        split at h
        · rename_i hr
          cases h
          refine ⟨c :: u, rfl, .bad c u t ?_ ?_ hu⟩
          · rcases Nat.lt_or_ge c.toNat 128 with hlt | hge
            · rw [runeLen_ascii c _ (by rw [UInt8.lt_iff_toNat_lt]; exact hlt)] at hr; cases hr
            · exact hge
          · rintro n x hx ⟨y, hy⟩
            refine no_rune hr n x hx ⟨y ++ 34 :: r, ?_⟩
            rw [← List.append_assoc, hy]; rfl
        · rename_i k hr
          obtain ⟨n, hn⟩ := rune_of_len c s k hr
          simp only [Option.some.injEq, Prod.mk.injEq] at h
          obtain ⟨rfl, h2⟩ := h
          refine ⟨(c :: s.take k) ++ u, ?_, ?_⟩
          · rw [List.append_assoc, ← h2, List.cons_append, List.take_append_drop]
          · have hlow := rune_low hn
            refine .rune n _ u t hn ?_ ?_ ?_ hu
            · rcases Nat.lt_or_ge n 128 with hlt | hge
              · rw [← hlow hlt]; exact Nat.le_of_not_lt h32
              · omega
            · rintro rfl
              exact hq (by rw [u8_ofNat c 34 (hlow (by decide))]; rfl)
            · rintro rfl
              exact hc (u8_ofNat c 92 (hlow (by decide)))

theorem strBody_sound (m : Nat) : ∀ (s b r : Str), strBody m s = some (b, r) → ∃ u, s = u ++ 34 :: r ∧ Chars u b := by
  induction m with
  | zero => intro s b r h; cases h
  | succ m ih =>
    intro s b r h
    cases s with
    | nil => cases h
    | cons c s =>
      simp only [strBody] at h
      split at h
      · rename_i hc; subst hc; cases h; exact ⟨[], rfl, .nil⟩
      · rename_i hc
        cases hk : chunk (c :: s) with
        | none => rw [hk] at h; cases h
        | some x =>
          obtain ⟨b1, r1⟩ := x
          rw [hk] at h
          simp only [Option.map_eq_some_iff] at h
          obtain ⟨⟨b2, r2⟩, h1, h2⟩ := h
          cases h2
          obtain ⟨u, rfl, hu⟩ := ih _ _ _ h1
          exact chars_step hk hu (by simpa using hc)

theorem chunk_rune {n : Nat} {u : Str} (h : Rune n u) (h1 : 32 ≤ n) (h2 : n ≠ 92) (r : Str) : chunk (u ++ r) = some (u, r) := by
  have hl := rune_len h r
  cases u with
  | nil => exact absurd rfl (rune_ne_nil h)
  | cons c t =>
    have hc : c.toNat = n ∨ 128 ≤ c.toNat := by
      rcases Nat.lt_or_ge n 128 with hlt | hge
      · exact .inl (rune_low h hlt)
      · exact .inr (rune_high h hge c (by simp))
    have hc1 : c ≠ 92 := by
      rintro rfl
      have : (92 : UInt8).toNat = 92 := rfl
      omega
    have hc2 : ¬ c < 32 := by
      rw [UInt8.lt_iff_toNat_lt]
      have : (32 : UInt8).toNat = 32 := rfl
      omega
    simp only [List.cons_append, List.length_cons] at hl ⊢
    simp only [chunk, hc1, hc2, if_false, hl]
    simp

theorem first_rune {n : Nat} {u : Str} (h : Rune n u) (h2 : n ≠ 34) (r : Str) : (u ++ r).head? ≠ some 34 := by
  cases u with
  | nil => exact absurd rfl (rune_ne_nil h)
  | cons c t =>
    intro hc
    simp at hc
    subst hc
    have : (34 : UInt8).toNat = 34 := rfl
    rcases Nat.lt_or_ge n 128 with hlt | hge
    · have := rune_low h hlt; omega
    · have := rune_high h hge 34 (by simp); omega

theorem strBody_chunk {s b r : Str} (m : Nat) (h : chunk s = some (b, r)) (hq : s.head? ≠ some 34) :
    strBody (m + 1) s = (strBody m r).map fun x => (b ++ x.1, x.2) := by
  cases s with
  | nil => cases h
  | cons c t =>
    have hc : c ≠ 34 := by simpa using hq
    simp only [strBody, if_neg hc, h]

theorem strBody_complete {u b : Str} (h : Chars u b) : ∀ (r : Str) (m : Nat), u.length ≤ m → strBody (m + 1) (u ++ 34 :: r) = some (b, r) := by
  have step : ∀ {s b1 u b r : Str} {m : Nat}, chunk s = some (b1, u ++ 34 :: r) → s.head? ≠ some 34 → u.length < m →
      (∀ (r : Str) (m : Nat), u.length ≤ m → strBody (m + 1) (u ++ 34 :: r) = some (b, r)) → strBody (m + 1) s = some (b1 ++ b, r) := by
    intro s b1 u b r m h1 h2 h3 ih
    obtain ⟨k, rfl⟩ : ∃ k, m = k + 1 := ⟨m - 1, by omega⟩
    rw [strBody_chunk _ h1 h2, ih r k (by omega)]
    rfl
  induction h with
  | nil => intro r m _; simp [strBody]
  | rune n u t s h1 h2 h3 h4 _ ih =>
    intro r m hm
    have hp := List.length_pos_iff.2 (rune_ne_nil h1)
    rw [List.length_append] at hm
    rw [List.append_assoc]
    exact step (chunk_rune h1 h2 h4 _) (first_rune h1 h3 _) (by omega) ih
  | bad c t s h1 h2 _ ih =>
    intro r m hm
    simp only [List.length_cons] at hm
    refine step (u := t) ?_ ?_ (by omega) ih
    · have hc1 : c ≠ 92 := by rintro rfl; exact absurd h1 (by decide)
      have hc2 : ¬ c < 32 := by
        rw [UInt8.lt_iff_toNat_lt]
        have : (32 : UInt8).toNat = 32 := rfl
        omega
      have hr : runeLen (c :: (t ++ 34 :: r)) = 0 := by
        cases hk : runeLen (c :: (t ++ 34 :: r)) with
        | zero => rfl
        | succ k =>
          exfalso
          obtain ⟨n, hn⟩ := rune_of_len _ _ _ hk
          refine h2 n _ hn (prefix_before (q := 34) (r := r) ⟨(t ++ 34 :: r).drop k, ?_⟩ ?_)
          · simp
          · intro hm
            rcases Nat.lt_or_ge n 128 with hlt | hge
            · have := rune_low hn hlt; omega
            · exact absurd (rune_high hn hge 34 hm) (by decide)
      simp only [List.cons_append, chunk, hc1, hc2, if_false, hr]
      rfl
    · simp
      rintro rfl
      exact absurd h1 (by decide)
  | short c b t s h1 _ ih =>
    intro r m hm
    simp only [List.length_cons] at hm
    refine step (b1 := [b]) (u := t) ?_ (by simp) (by omega) ih
    simp only [shortEscapes, List.mem_cons, Prod.mk.injEq, List.not_mem_nil, or_false] at h1
    rcases h1 with ⟨rfl, rfl⟩ | ⟨rfl, rfl⟩ | ⟨rfl, rfl⟩ | ⟨rfl, rfl⟩ | ⟨rfl, rfl⟩ | ⟨rfl, rfl⟩ | ⟨rfl, rfl⟩ | ⟨rfl, rfl⟩ <;>
      simp [chunk, escape]
  | uni h n u t s h1 h2 _ ih =>
    intro r m hm
    simp only [List.length_cons, List.length_append] at hm
    refine step (u := t) ?_ (by simp) (by omega) ih
    have hs : ¬ (0xD800 ≤ n ∧ n < 0xE000) := by cases h2 <;> omega
    rw [rune_enc h2]
    have := escape_u (h ++ (t ++ 34 :: r)) n _ (hex4_to h1 _) hs
    simpa using this
  | pair h l a b u t s h1 h2 h3 h4 h5 h6 h7 _ ih =>
    intro r m hm
    simp only [List.length_cons, List.length_append] at hm
    refine step (u := t) ?_ (by simp) (by omega) ih
    rw [rune_enc h7]
    have e1 : (92 :: 117 :: (h ++ 92 :: 117 :: (l ++ t))) ++ 34 :: r = 92 :: 117 :: (h ++ (92 :: 117 :: (l ++ (t ++ 34 :: r)))) := by simp
    rw [e1]
    have e2 : chunk (92 :: 117 :: (h ++ (92 :: 117 :: (l ++ (t ++ 34 :: r))))) = escape (117 :: (h ++ (92 :: 117 :: (l ++ (t ++ 34 :: r))))) := rfl
    rw [e2]
    unfold escape
    simp only [hex4_to h1, lowHalf_to h2 h5 h6]
    rw [if_neg (by decide), if_neg (by decide), if_neg (by decide), if_neg (by decide), if_neg (by decide), if_neg (by decide), if_true,
      if_pos ⟨h3, by omega⟩, if_pos h4]
  | lone h n t s h1 h2 h3 h4 _ ih =>
    intro r m hm
    simp only [List.length_cons, List.length_append] at hm
    refine step (u := t) ?_ (by simp) (by omega) ih
    have e1 : (92 :: 117 :: (h ++ t)) ++ 34 :: r = 92 :: 117 :: (h ++ (t ++ 34 :: r)) := by simp
    rw [e1]
    have e2 : chunk (92 :: 117 :: (h ++ (t ++ 34 :: r))) = escape (117 :: (h ++ (t ++ 34 :: r))) := rfl
    rw [e2]
    unfold escape
    simp only [hex4_to h1]
    rw [if_neg (by decide), if_neg (by decide), if_neg (by decide), if_neg (by decide), if_neg (by decide), if_neg (by decide), if_true,
      if_pos ⟨h2, h3⟩]
    by_cases hn : n < 0xDC00
    · rw [if_pos hn, lowHalf_none (h4 hn)]; rfl
    · rw [if_neg hn]; rfl

/-! ### Numbers -/

theorem isDigit_nat (c : UInt8) : isDigit c = true ↔ 48 ≤ c.toNat ∧ c.toNat ≤ 57 := by
  simp only [isDigit, Bool.and_eq_true, decide_eq_true_eq, UInt8.le_iff_toNat_le]
  rfl

theorem digits_sound (s : Str) : s = (digits s).1 ++ (digits s).2 ∧ Digits (digits s).1 := by
  induction s with
  | nil => exact ⟨rfl, fun d h => by cases h⟩
  | cons c t ih =>
    simp only [digits]
    split
    · rename_i hc
      refine ⟨by rw [List.cons_append, ← ih.1], ?_⟩
      intro d hd
      rcases List.mem_cons.1 hd with rfl | hd
      · exact (isDigit_nat _).1 hc
      · exact ih.2 d hd
    · exact ⟨rfl, fun d h => by cases h⟩

/-- The text does not go on with a character of a number. -/
def Stop (r : Str) : Prop := ∀ c t, r = c :: t → isDigit c = false ∧ c ≠ 46 ∧ c ≠ 101 ∧ c ≠ 69

theorem digits_complete {ds r : Str} (h : Digits ds) (hr : ∀ c t, r = c :: t → isDigit c = false) : digits (ds ++ r) = (ds, r) := by
  induction ds with
  | nil =>
    cases r with
    | nil => rfl
    | cons c t => simp [digits, hr c t rfl]
  | cons d t ih =>
    have hd := (isDigit_nat d).2 (h d (by simp))
    simp only [List.cons_append, digits, hd, if_true, ih (fun e he => h e (by simp [he]))]

theorem signPart_sound (s : Str) : s = (signPart s).1 ++ (signPart s).2 ∧ ((signPart s).1 = [] ∨ (signPart s).1 = [45]) := by
  cases s with
  | nil => exact ⟨rfl, .inl rfl⟩
  | cons c t =>
    simp only [signPart]
    split
    · rename_i hc; subst hc; exact ⟨rfl, .inr rfl⟩
    · exact ⟨rfl, .inl rfl⟩

theorem intPart_sound {s i r : Str} (h : intPart s = some (i, r)) : s = i ++ r ∧ IntText i := by
  cases s with
  | nil => cases h
  | cons c t =>
    simp only [intPart] at h
    split at h
    · rename_i hc; subst hc; cases h; exact ⟨rfl, .inl rfl⟩
    · rename_i h0
      split at h
      · rename_i hd
        cases h
        have hd := (isDigit_nat c).1 hd
        refine ⟨by rw [List.cons_append, ← (digits_sound t).1], .inr ⟨c, _, rfl, ?_, hd.2, (digits_sound t).2⟩⟩
        rcases Nat.lt_or_ge c.toNat 49 with hlt | hge
        · exact absurd (u8_ofNat c 48 (by omega)) h0
        · exact hge
      · cases h

theorem fracPart_sound {s f r : Str} (h : fracPart s = some (f, r)) : s = f ++ r ∧ FracText f := by
  unfold fracPart at h
  split at h
  · rename_i t
    split at h
    · cases h
    · rename_i hd
      cases h
      exact ⟨by rw [List.cons_append, ← (digits_sound t).1], .inr ⟨_, rfl, hd, (digits_sound t).2⟩⟩
  · cases h; exact ⟨rfl, .inl rfl⟩

theorem expPart_sound {s e r : Str} (h : expPart s = some (e, r)) : s = e ++ r ∧ ExpText e := by
  cases s with
  | nil => cases h; exact ⟨rfl, .inl rfl⟩
  | cons c t =>
    simp only [expPart] at h
    split at h
    · rename_i hc
      cases t with
      | nil => cases h
      | cons d u =>
        simp only at h
        split at h
        · rename_i hd
          split at h
          · cases h
          · rename_i hn
            cases h
            refine ⟨by rw [List.cons_append, List.cons_append, ← (digits_sound u).1], .inr ⟨c, [d], _, rfl, hc, ?_, hn, (digits_sound u).2⟩⟩
            rcases hd with rfl | rfl
            · exact .inr (.inl rfl)
            · exact .inr (.inr rfl)
        · split at h
          · cases h
          · rename_i hn
            cases h
            exact ⟨by rw [List.cons_append, ← (digits_sound (d :: u)).1], .inr ⟨c, [], _, rfl, hc, .inl rfl, hn, (digits_sound (d :: u)).2⟩⟩
    · cases h; exact ⟨rfl, .inl rfl⟩

theorem number_sound {s t r : Str} (h : number s = some (t, r)) : s = t ++ r ∧ NumText t := by
  unfold number at h
  split at h
  · cases h
  rename_i i r1 hi
  split at h
  · cases h
  rename_i f r2 hf
  split at h
  · cases h
  rename_i e r3 he
  cases h
  refine ⟨?_, _, i, f, e, rfl, (signPart_sound s).2, (intPart_sound hi).2, (fracPart_sound hf).2, (expPart_sound he).2⟩
  rw [List.append_assoc, List.append_assoc, List.append_assoc, ← (expPart_sound he).1, ← (fracPart_sound hf).1, ← (intPart_sound hi).1]
  exact (signPart_sound s).1

theorem number_complete {t r : Str} (h : NumText t) (hr : Stop r) : number (t ++ r) = some (t, r) := by
  obtain ⟨sign, i, f, e, rfl, hs, hi, hf, he⟩ := h
  have noDigit : ∀ {x : Str}, (∀ c t, x = c :: t → isDigit c = false ∧ c ≠ 46) → ∀ c t, x = c :: t → isDigit c = false :=
    fun h c t hx => (h c t hx).1
  have hex : ∀ c t, e ++ r = c :: t → isDigit c = false ∧ c ≠ 46 := by
    intro c t hx
    rcases he with rfl | ⟨a, sg, ds, rfl, ha, _⟩
    · exact ⟨(hr c t hx).1, (hr c t hx).2.1⟩
    · simp at hx
      rcases ha with rfl | rfl
      · rw [← hx.1]; decide
      · rw [← hx.1]; decide
  have hE : expPart (e ++ r) = some (e, r) := by
    rcases he with rfl | ⟨a, sg, ds, rfl, ha, hsg, hn, hd⟩
    · cases r with
      | nil => rfl
      | cons c t =>
        have := hr c t rfl
        simp [expPart, this.2.2.1, this.2.2.2]
    · have hds := digits_complete hd (fun c t h => (hr c t h).1)
      rcases hsg with rfl | rfl | rfl
      · cases ds with
        | nil => exact absurd rfl hn
        | cons d u =>
          have hdd := hd d (by simp)
          have h1 : ¬ (d = 43 ∨ d = 45) := by
            rintro (rfl | rfl)
            · exact absurd hdd.1 (by decide)
            · exact absurd hdd.1 (by decide)
          simp only [List.cons_append] at hds
          simp only [List.nil_append, List.cons_append, expPart, ha, if_true, h1, if_false, hds]
          simp
      · simp only [List.cons_append, List.nil_append, expPart, ha, if_true, hds, hn, if_false]
        simp
      · simp only [List.cons_append, List.nil_append, expPart, ha, if_true, hds, hn, if_false]
        simp
  have hF : fracPart (f ++ (e ++ r)) = some (f, e ++ r) := by
    rcases hf with rfl | ⟨ds, rfl, hn, hd⟩
    · rw [List.nil_append]
      unfold fracPart
      split
      · rename_i t hx
        exact absurd rfl (hex 46 t hx).2
      · rfl
    · have hds := digits_complete hd (noDigit hex)
      simp only [List.cons_append, fracPart, hds, hn, if_false]
  have hfx : ∀ c t, f ++ (e ++ r) = c :: t → isDigit c = false := by
    intro c t hx
    rcases hf with rfl | ⟨ds, rfl, _⟩
    · exact (hex c t hx).1
    · simp at hx; rw [← hx.1]; decide
  have hI : intPart (i ++ (f ++ (e ++ r))) = some (i, f ++ (e ++ r)) := by
    rcases hi with rfl | ⟨c, ds, rfl, h1, h2, hd⟩
    · simp [intPart]
    · have hds := digits_complete hd hfx
      have hc : c ≠ 48 := by rintro rfl; exact absurd h1 (by decide)
      have hdg := (isDigit_nat c).2 ⟨by omega, h2⟩
      simp only [List.cons_append, intPart, hc, if_false, hdg, if_true, hds]
  have hS : signPart (sign ++ (i ++ (f ++ (e ++ r)))) = (sign, i ++ (f ++ (e ++ r))) := by
    rcases hs with rfl | rfl
    · rcases hi with rfl | ⟨c, ds, rfl, h1, h2, hd⟩
      · simp [signPart]
      · have hc : c ≠ 45 := by rintro rfl; exact absurd h1 (by decide)
        simp [signPart, hc]
    · simp [signPart]
  simp only [List.append_assoc, number, hS, hI, hF, hE]

/-! ### Values -/

theorem isSpace_true {c : UInt8} : isSpace c = true ↔ c = 32 ∨ c = 9 ∨ c = 10 ∨ c = 13 := by
  simp only [isSpace, Bool.or_eq_true, decide_eq_true_eq]
  constructor
  · rintro (((h | h) | h) | h)
    · exact .inl h
    · exact .inr (.inl h)
    · exact .inr (.inr (.inr h))
    · exact .inr (.inr (.inl h))
  · rintro (h | h | h | h)
    · exact .inl (.inl (.inl h))
    · exact .inl (.inl (.inr h))
    · exact .inr h
    · exact .inl (.inr h)

theorem skipWs_split (s : Str) : ∃ w, s = w ++ skipWs s ∧ Ws w := by
  induction s with
  | nil => exact ⟨[], rfl, fun c h => by cases h⟩
  | cons c t ih =>
    simp only [skipWs]
    split
    · rename_i hc
      obtain ⟨w, h1, h2⟩ := ih
      refine ⟨c :: w, by rw [List.cons_append, ← h1], ?_⟩
      intro d hd
      rcases List.mem_cons.1 hd with rfl | hd
      · exact isSpace_true.1 hc
      · exact h2 d hd
    · exact ⟨[], rfl, fun c h => by cases h⟩

theorem skipWs_over {w : Str} (h : Ws w) (s : Str) : skipWs (w ++ s) = skipWs s := by
  induction w with
  | nil => rfl
  | cons c t ih =>
    simp only [List.cons_append, skipWs, isSpace_true.2 (h c (by simp)), if_true]
    exact ih fun d hd => h d (by simp [hd])

theorem skipWs_head {c : UInt8} (t : Str) (h : isSpace c = false) : skipWs (c :: t) = c :: t := by
  simp [skipWs, h]

theorem skipWs_idem (s : Str) : skipWs (skipWs s) = skipWs s := by
  obtain ⟨w, h1, h2⟩ := skipWs_split s
  have := skipWs_over h2 (skipWs s)
  rw [← h1] at this
  exact this.symm

theorem ws_append {a b : Str} (ha : Ws a) (hb : Ws b) : Ws (a ++ b) := by
  intro c hc
  rcases List.mem_append.1 hc with h | h
  · exact ha c h
  · exact hb c h

theorem ws_nil : Ws [] := fun c h => by cases h

theorem literal_split (p s r : Str) (h : literal p s = some r) : s = p ++ r := by
  induction p generalizing s with
  | nil => cases h; rfl
  | cons a p ih =>
    cases s with
    | nil => cases h
    | cons c s =>
      simp only [literal] at h
      split at h
      · rename_i hc; rw [hc, List.cons_append, ← ih s h]
      · cases h

theorem literal_over (p r : Str) : literal p (p ++ r) = some r := by
  induction p with
  | nil => rfl
  | cons a p ih => simp only [List.cons_append, literal, if_true]; exact ih

theorem commas_cons (a : Str) (l : List Str) (h : l ≠ []) : commas (a :: l) = a ++ 44 :: commas l := by
  cases l with
  | nil => exact absurd rfl h
  | cons b t => rfl

/-- What the reader accepts is in the grammar. -/
theorem read_sound (n : Nat) :
    (∀ s j r, value n s = some (j, r) → ∃ a v, s = a ++ v ++ r ∧ Ws a ∧ Text v j) ∧
    (∀ s l r, elems n s = some (l, r) → ∃ es : List Elem, es ≠ [] ∧ (∀ e ∈ es, Ws e.pre ∧ Ws e.post) ∧ (∀ e ∈ es, Text e.text e.val) ∧
      s = commas (es.map Elem.src) ++ 93 :: r ∧ l = es.map Elem.val) ∧
    (∀ s l r, members n s = some (l, r) → ∃ ms : List Member, ms ≠ [] ∧
      (∀ m ∈ ms, Ws m.pre ∧ Ws m.mid ∧ Ws m.value.pre ∧ Ws m.value.post ∧ Chars m.quoted m.name) ∧
      (∀ m ∈ ms, Text m.value.text m.value.val) ∧ s = commas (ms.map Member.src) ++ 125 :: r ∧
      l = ms.map fun m => (m.name, m.value.val)) := by
  induction n with
  | zero => exact ⟨fun s j r h => by simp [value] at h, fun s j r h => by simp [elems] at h, fun s j r h => by simp [members] at h⟩
  | succ n ih =>
    obtain ⟨ihv, ihe, ihm⟩ := ih
    refine ⟨?_, ?_, ?_⟩
    · intro s j r h
      obtain ⟨w, hs, hw⟩ := skipWs_split s
      have fin : ∀ v, skipWs s = v ++ r → Text v j → ∃ a v, s = a ++ v ++ r ∧ Ws a ∧ Text v j := by
        intro v hv ht
        exact ⟨w, v, by rw [List.append_assoc, ← hv]; exact hs, hw, ht⟩
      simp only [value] at h
      cases hk : skipWs s with
      | nil => rw [hk] at h; cases h
      | cons c t =>
        rw [hk] at h fin
        simp only at h
        split at h
        · rename_i hc; subst hc
          simp only [Option.map_eq_some_iff] at h
          obtain ⟨⟨b, r'⟩, h1, h2⟩ := h
          cases h2
          obtain ⟨u, rfl, hu⟩ := strBody_sound _ _ _ _ h1
          exact fin (34 :: (u ++ [34])) (by simp) (.str u b hu)
        split at h
        · rename_i hc; subst hc
          obtain ⟨w', ht, hw'⟩ := skipWs_split t
          split at h
          · rename_i r' hr
            cases h
            rw [hr] at ht
            exact fin (123 :: (w' ++ [125])) (by rw [ht]; simp) (.obj0 w' hw')
          · simp only [Option.map_eq_some_iff] at h
            obtain ⟨⟨l, r'⟩, h1, h2⟩ := h
            cases h2
            obtain ⟨ms, hn, hm1, hm2, he, rfl⟩ := ihm _ _ _ h1
            cases ms with
            | nil => exact absurd rfl hn
            | cons m ms =>
              have hsrc : ∀ x : Str, w' ++ (commas ((m :: ms).map Member.src) ++ x) =
                  commas (({ m with pre := w' ++ m.pre } :: ms).map Member.src) ++ x := by
                intro x
                cases ms with
                | nil => simp [commas, Member.src]
                | cons m2 ms => simp [commas, Member.src]
              rw [he] at ht
              refine fin (123 :: (commas (({ m with pre := w' ++ m.pre } :: ms).map Member.src) ++ [125])) ?_ ?_
              · rw [ht, hsrc]; simp
              · refine .obj ({ m with pre := w' ++ m.pre } :: ms) (by simp) ?_ ?_
                · intro x hx
                  rcases List.mem_cons.1 hx with rfl | hx
                  · have := hm1 m (by simp)
                    exact ⟨ws_append hw' this.1, this.2⟩
                  · exact hm1 x (by simp [hx])
                · intro x hx
                  rcases List.mem_cons.1 hx with rfl | hx
                  · exact hm2 m (by simp)
                  · exact hm2 x (by simp [hx])
        split at h
        · rename_i hc; subst hc
          obtain ⟨w', ht, hw'⟩ := skipWs_split t
          split at h
          · rename_i r' hr
            cases h
            rw [hr] at ht
            exact fin (91 :: (w' ++ [93])) (by rw [ht]; simp) (.arr0 w' hw')
          · simp only [Option.map_eq_some_iff] at h
            obtain ⟨⟨l, r'⟩, h1, h2⟩ := h
            cases h2
            obtain ⟨ms, hn, hm1, hm2, he, rfl⟩ := ihe _ _ _ h1
            cases ms with
            | nil => exact absurd rfl hn
            | cons m ms =>
              have hsrc : ∀ x : Str, w' ++ (commas ((m :: ms).map Elem.src) ++ x) =
                  commas (({ m with pre := w' ++ m.pre } :: ms).map Elem.src) ++ x := by
                intro x
                cases ms with
                | nil => simp [commas, Elem.src]
                | cons m2 ms => simp [commas, Elem.src]
              rw [he] at ht
              refine fin (91 :: (commas (({ m with pre := w' ++ m.pre } :: ms).map Elem.src) ++ [93])) ?_ ?_
              · rw [ht, hsrc]; simp
              · refine .arr ({ m with pre := w' ++ m.pre } :: ms) (by simp) ?_ ?_
                · intro x hx
                  rcases List.mem_cons.1 hx with rfl | hx
                  · have := hm1 m (by simp)
                    exact ⟨ws_append hw' this.1, this.2⟩
                  · exact hm1 x (by simp [hx])
                · intro x hx
                  rcases List.mem_cons.1 hx with rfl | hx
                  · exact hm2 m (by simp)
                  · exact hm2 x (by simp [hx])
        split at h
        · rename_i hc; subst hc
          simp only [Option.map_eq_some_iff] at h
          obtain ⟨r', h1, h2⟩ := h
          cases h2
          exact fin (go!"true") (by rw [literal_split _ _ _ h1]; rfl) .true
        split at h
        · rename_i hc; subst hc
          simp only [Option.map_eq_some_iff] at h
          obtain ⟨r', h1, h2⟩ := h
          cases h2
          exact fin (go!"false") (by rw [literal_split _ _ _ h1]; rfl) .false
        split at h
        · rename_i hc; subst hc
          simp only [Option.map_eq_some_iff] at h
          obtain ⟨r', h1, h2⟩ := h
          cases h2
          exact fin (go!"null") (by rw [literal_split _ _ _ h1]; rfl) .null
        · simp only [Option.map_eq_some_iff] at h
          obtain ⟨⟨b, r'⟩, h1, h2⟩ := h
          cases h2
          exact fin b (number_sound h1).1 (.num b (number_sound h1).2)
    · intro s l r h
      simp only [elems] at h
      split at h
      · cases h
      rename_i v r1 hv
      obtain ⟨a, t, rfl, ha, ht⟩ := ihv _ _ _ hv
      obtain ⟨w, hr, hw⟩ := skipWs_split r1
      split at h
      · cases h
      rename_i c r2 hk
      rw [hk] at hr
      split at h
      · rename_i hc; subst hc
        simp only [Option.map_eq_some_iff] at h
        obtain ⟨⟨l', r'⟩, h1, h2⟩ := h
        cases h2
        obtain ⟨es, hn, h3, h4, rfl, rfl⟩ := ihe _ _ _ h1
        refine ⟨⟨a, t, v, w⟩ :: es, by simp, ?_, ?_, ?_, rfl⟩
        · intro x hx
          rcases List.mem_cons.1 hx with rfl | hx
          · exact ⟨ha, hw⟩
          · exact h3 x hx
        · intro x hx
          rcases List.mem_cons.1 hx with rfl | hx
          · exact ht
          · exact h4 x hx
        · rw [List.map_cons, commas_cons _ _ (by simpa using hn), hr]; simp [Elem.src]
      · split at h
        · rename_i hc; subst hc
          cases h
          refine ⟨[⟨a, t, v, w⟩], by simp, ?_, ?_, ?_, rfl⟩
          · intro x hx; rw [List.mem_singleton.1 hx]; exact ⟨ha, hw⟩
          · intro x hx; rw [List.mem_singleton.1 hx]; exact ht
          · rw [hr]; simp [Elem.src, commas]
        · cases h
    · intro s l r h
      simp only [members] at h
      obtain ⟨w0, hs, hw0⟩ := skipWs_split s
      split at h
      · cases h
      rename_i c t hk
      rw [hk] at hs
      split at h
      · rename_i hc; subst hc
        split at h
        · cases h
        rename_i k r1 hb
        obtain ⟨q, rfl, hq⟩ := strBody_sound _ _ _ _ hb
        obtain ⟨w1, h1, hw1⟩ := skipWs_split r1
        split at h
        · cases h
        rename_i c r2 hk1
        rw [hk1] at h1
        split at h
        · rename_i hc; subst hc
          split at h
          · cases h
          rename_i v r3 hv
          obtain ⟨a, u, rfl, ha, hu⟩ := ihv _ _ _ hv
          obtain ⟨w, hr, hw⟩ := skipWs_split r3
          split at h
          · cases h
          rename_i c r4 hk3
          rw [hk3] at hr
          split at h
          · rename_i hc; subst hc
            simp only [Option.map_eq_some_iff] at h
            obtain ⟨⟨l', r'⟩, h2, h3⟩ := h
            cases h3
            obtain ⟨es, hn, h3, h4, rfl, rfl⟩ := ihm _ _ _ h2
            refine ⟨⟨w0, q, k, w1, ⟨a, u, v, w⟩⟩ :: es, by simp, ?_, ?_, ?_, rfl⟩
            · intro x hx
              rcases List.mem_cons.1 hx with rfl | hx
              · exact ⟨hw0, hw1, ha, hw, hq⟩
              · exact h3 x hx
            · intro x hx
              rcases List.mem_cons.1 hx with rfl | hx
              · exact hu
              · exact h4 x hx
            · rw [List.map_cons, commas_cons _ _ (by simpa using hn), hs, h1, hr]; simp [Member.src, Elem.src]
          · split at h
            · rename_i hc; subst hc
              cases h
              refine ⟨[⟨w0, q, k, w1, ⟨a, u, v, w⟩⟩], by simp, ?_, ?_, ?_, rfl⟩
              · intro x hx; rw [List.mem_singleton.1 hx]; exact ⟨hw0, hw1, ha, hw, hq⟩
              · intro x hx; rw [List.mem_singleton.1 hx]; exact hu
              · rw [hs, h1, hr]; simp [Member.src, Elem.src, commas]
            · cases h
        · cases h
      · cases h

theorem value_ws {w : Str} (h : Ws w) (n : Nat) (s : Str) : value n (w ++ s) = value n s := by
  cases n with
  | zero => simp [value]
  | succ n => simp only [value, skipWs_over h]

theorem value_skipped (n : Nat) (s : Str) : value n (skipWs s) = value n s := by
  cases n with
  | zero => simp [value]
  | succ n => simp only [value, skipWs_idem]

theorem elems_skipped (n : Nat) (s : Str) : elems n (skipWs s) = elems n s := by
  cases n with
  | zero => simp [elems]
  | succ n => simp only [elems, value_skipped]

theorem members_skipped (n : Nat) (s : Str) : members n (skipWs s) = members n s := by
  cases n with
  | zero => simp [members]
  | succ n => simp only [members, skipWs_idem]

theorem num_head {t : Str} (h : NumText t) : ∃ c u, t = c :: u ∧ (c = 45 ∨ isDigit c = true) := by
  obtain ⟨sign, i, f, e, rfl, hs, hi, hf, he⟩ := h
  rcases hs with rfl | rfl
  · rcases hi with rfl | ⟨d, ds, rfl, h1, h2, h3⟩
    · exact ⟨48, f ++ e, by simp, .inr (by decide)⟩
    · exact ⟨d, ds ++ f ++ e, by simp, .inr ((isDigit_nat d).2 ⟨by omega, by omega⟩)⟩
  · exact ⟨45, i ++ f ++ e, by simp, .inl rfl⟩

theorem digit_plain {c : UInt8} (h : c = 45 ∨ isDigit c = true) :
    isSpace c = false ∧ c ≠ 34 ∧ c ≠ 123 ∧ c ≠ 91 ∧ c ≠ 116 ∧ c ≠ 102 ∧ c ≠ 110 ∧ c ≠ 93 ∧ c ≠ 125 := by
  rcases h with rfl | h
  · decide
  · have hs : isSpace c = false := by
      cases hc : isSpace c with
      | false => rfl
      | true => rcases isSpace_true.1 hc with rfl | rfl | rfl | rfl <;> exact absurd h (by decide)
    exact ⟨hs, isDigit_ne h _ (by decide), isDigit_ne h _ (by decide), isDigit_ne h _ (by decide), isDigit_ne h _ (by decide),
      isDigit_ne h _ (by decide), isDigit_ne h _ (by decide), isDigit_ne h _ (by decide), isDigit_ne h _ (by decide)⟩

theorem text_head {v : Str} {j : Json} (h : Text v j) : ∃ c u, v = c :: u ∧ isSpace c = false ∧ c ≠ 93 ∧ c ≠ 125 := by
  cases h with
  | num _ h =>
    obtain ⟨c, u, h1, h2⟩ := num_head h
    have := digit_plain h2
    exact ⟨c, u, h1, this.1, this.2.2.2.2.2.2.2.1, this.2.2.2.2.2.2.2.2⟩
  | _ => exact ⟨_, _, rfl, by decide, by decide, by decide⟩

theorem stop_head {c : UInt8} (t : Str) (h : isSpace c = true ∨ c = 44 ∨ c = 93 ∨ c = 125) : Stop (c :: t) := by
  intro d u hd
  cases hd
  rcases h with h | rfl | rfl | rfl
  · rcases isSpace_true.1 h with rfl | rfl | rfl | rfl <;> decide
  all_goals decide

theorem stop_ws {w : Str} (hw : Ws w) {c : UInt8} (t : Str) (h : c = 44 ∨ c = 93 ∨ c = 125) : Stop (w ++ c :: t) := by
  cases w with
  | nil => exact stop_head t (.inr h)
  | cons d w => exact stop_head _ (.inl (isSpace_true.2 (hw d (by simp))))

theorem stop_ws_end {w : Str} (hw : Ws w) : Stop w := by
  cases w with
  | nil => intro d u hd; cases hd
  | cons d w => exact stop_head _ (.inl (isSpace_true.2 (hw d (by simp))))

theorem skipWs_to {w : Str} (hw : Ws w) {c : UInt8} (t : Str) (h : isSpace c = false) : skipWs (w ++ c :: t) = c :: t := by
  rw [skipWs_over hw, skipWs_head _ h]

/-- A text the reader reads through whatever it is followed by, if it is no number that goes on. -/
def Reads (v : Str) (j : Json) : Prop := ∀ (r : Str) (n : Nat), ((∃ t, j = .num t) → Stop r) → 2 * v.length ≤ n → value n (v ++ r) = some (j, r)

theorem elems_complete (es : List Elem) (hn : es ≠ []) (hw : ∀ e ∈ es, Ws e.pre ∧ Ws e.post) (ht : ∀ e ∈ es, Reads e.text e.val) :
    ∀ (r : Str) (n : Nat), 2 * (commas (es.map Elem.src)).length + 1 ≤ n →
      elems n (commas (es.map Elem.src) ++ 93 :: r) = some (es.map Elem.val, r) := by
  induction es with
  | nil => exact absurd rfl hn
  | cons e es ih =>
    intro r n hl
    obtain ⟨n, rfl⟩ : ∃ m, n = m + 1 := ⟨n - 1, by omega⟩
    have he := hw e (by simp)
    by_cases hes : es = []
    · subst hes
      simp only [List.map_cons, List.map_nil, commas, Elem.src, List.length_append] at hl
      simp only [List.map_cons, List.map_nil, commas, Elem.src, List.append_assoc, elems]
      rw [value_ws he.1, ht e (by simp) _ n (fun _ => stop_ws he.2 _ (by decide)) (by omega)]
      simp only
      rw [skipWs_to he.2 _ (by decide)]
      simp only
      rw [if_neg (by decide), if_true]
    · rw [List.map_cons, commas_cons _ _ (by simpa using hes)] at hl ⊢
      simp only [Elem.src, List.length_append, List.length_cons] at hl
      simp only [Elem.src, List.append_assoc, List.cons_append, elems]
      rw [value_ws he.1, ht e (by simp) _ n (fun _ => stop_ws he.2 _ (by decide)) (by omega)]
      simp only
      rw [skipWs_to he.2 _ (by decide)]
      simp only
      have hi := ih hes (fun x hx => hw x (by simp [hx])) (fun x hx => ht x (by simp [hx])) r n (by omega)
      rw [if_true, hi]
      rfl

theorem members_complete (ms : List Member) (hn : ms ≠ [])
    (hw : ∀ m ∈ ms, Ws m.pre ∧ Ws m.mid ∧ Ws m.value.pre ∧ Ws m.value.post ∧ Chars m.quoted m.name)
    (ht : ∀ m ∈ ms, Reads m.value.text m.value.val) :
    ∀ (r : Str) (n : Nat), 2 * (commas (ms.map Member.src)).length + 1 ≤ n →
      members n (commas (ms.map Member.src) ++ 125 :: r) = some (ms.map (fun m => (m.name, m.value.val)), r) := by
  induction ms with
  | nil => exact absurd rfl hn
  | cons m ms ih =>
    intro r n hl
    obtain ⟨n, rfl⟩ : ∃ m, n = m + 1 := ⟨n - 1, by omega⟩
    obtain ⟨h1, h2, h3, h4, h5⟩ := hw m (by simp)
    by_cases hms : ms = []
    · subst hms
      simp only [List.map_cons, List.map_nil, commas, Member.src, Elem.src, List.length_append, List.length_cons] at hl
      simp only [List.map_cons, List.map_nil, commas, Member.src, Elem.src, List.append_assoc, List.cons_append, members]
      rw [skipWs_to h1 _ (by decide)]
      simp only
      rw [if_true, strBody_complete h5 _ _ (by simp only [List.length_append]; omega)]
      simp only
      rw [skipWs_to h2 _ (by decide)]
      simp only
      rw [if_true, value_ws h3, ht m (by simp) _ n (fun _ => stop_ws h4 _ (by decide)) (by omega)]
      simp only
      rw [skipWs_to h4 _ (by decide)]
      simp only
      rw [if_neg (by decide), if_true]
    · rw [List.map_cons, commas_cons _ _ (by simpa using hms)] at hl ⊢
      simp only [Member.src, Elem.src, List.length_append, List.length_cons] at hl
      simp only [Member.src, Elem.src, List.append_assoc, List.cons_append, members]
      rw [skipWs_to h1 _ (by decide)]
      simp only
      rw [if_true, strBody_complete h5 _ _ (by simp only [List.length_append]; omega)]
      simp only
      rw [skipWs_to h2 _ (by decide)]
      simp only
      rw [if_true, value_ws h3, ht m (by simp) _ n (fun _ => stop_ws h4 _ (by decide)) (by omega)]
      simp only
      rw [skipWs_to h4 _ (by decide)]
      simp only
      have hi := ih hms (fun x hx => hw x (by simp [hx])) (fun x hx => ht x (by simp [hx])) r n (by omega)
      rw [if_true, hi]
      rfl

/-- What is in the grammar is read, with the value the grammar gives it. -/
theorem read_complete {v : Str} {j : Json} (h : Text v j) : Reads v j := by
  induction h with
  | null =>
    intro r n _ hn
    obtain ⟨n, rfl⟩ : ∃ m, n = m + 1 := ⟨n - 1, by simp at hn; omega⟩
    simp [value, skipWs, isSpace, literal]
  | true =>
    intro r n _ hn
    obtain ⟨n, rfl⟩ : ∃ m, n = m + 1 := ⟨n - 1, by simp at hn; omega⟩
    simp [value, skipWs, isSpace, literal]
  | false =>
    intro r n _ hn
    obtain ⟨n, rfl⟩ : ∃ m, n = m + 1 := ⟨n - 1, by simp at hn; omega⟩
    simp [value, skipWs, isSpace, literal]
  | num t ht =>
    intro r n hr hn
    have hc := number_complete ht (hr ⟨_, rfl⟩)
    obtain ⟨c, u, rfl, hh⟩ := num_head ht
    obtain ⟨n, rfl⟩ : ∃ m, n = m + 1 := ⟨n - 1, by simp at hn; omega⟩
    obtain ⟨p1, p2, p3, p4, p5, p6, p7, _, _⟩ := digit_plain hh
    rw [List.cons_append] at hc ⊢
    simp only [value, skipWs_head _ p1]
    rw [if_neg p2, if_neg p3, if_neg p4, if_neg p5, if_neg p6, if_neg p7, hc]
    rfl
  | str t s ht =>
    intro r n hr hn
    obtain ⟨n, rfl⟩ : ∃ m, n = m + 1 := ⟨n - 1, by simp at hn; omega⟩
    simp only [List.cons_append, List.append_assoc, List.nil_append, value]
    rw [skipWs_head _ (by decide)]
    simp only
    rw [if_true, strBody_complete ht _ _ (by simp only [List.length_append]; omega)]
    rfl
  | arr0 w hw =>
    intro r n hr hn
    obtain ⟨n, rfl⟩ : ∃ m, n = m + 1 := ⟨n - 1, by simp at hn; omega⟩
    simp only [List.cons_append, List.append_assoc, List.nil_append, value]
    rw [skipWs_head _ (by decide)]
    simp only
    rw [if_neg (by decide), if_neg (by decide), if_true, skipWs_to hw _ (by decide)]
    rfl
  | obj0 w hw =>
    intro r n hr hn
    obtain ⟨n, rfl⟩ : ∃ m, n = m + 1 := ⟨n - 1, by simp at hn; omega⟩
    simp only [List.cons_append, List.append_assoc, List.nil_append, value]
    rw [skipWs_head _ (by decide)]
    simp only
    rw [if_neg (by decide), if_true, skipWs_to hw _ (by decide)]
    rfl
  | arr l hl hw ht ih =>
    intro r n hr hn
    obtain ⟨n, rfl⟩ : ∃ m, n = m + 1 := ⟨n - 1, by simp at hn; omega⟩
    simp only [List.length_cons, List.length_append, List.length_nil] at hn
    have he := elems_complete l hl hw ih r n (by omega)
    have hhd : ∃ c u, skipWs (commas (l.map Elem.src) ++ 93 :: r) = c :: u ∧ c ≠ 93 := by
      cases l with
      | nil => exact absurd rfl hl
      | cons e l =>
        obtain ⟨c, u, h1, h2, h3, _⟩ := text_head (ht e (by simp))
        have : ∃ x, commas ((e :: l).map Elem.src) = e.pre ++ c :: x := by
          cases l with
          | nil => exact ⟨u ++ e.post, by simp [commas, Elem.src, h1]⟩
          | cons b l => exact ⟨u ++ e.post ++ 44 :: commas ((b :: l).map Elem.src), by simp [commas, Elem.src, h1]⟩
        obtain ⟨x, hx⟩ := this
        exact ⟨c, x ++ 93 :: r, by rw [hx, List.append_assoc, List.cons_append, skipWs_to (hw e (by simp)).1 _ h2], h3⟩
    simp only [List.cons_append, List.append_assoc, List.nil_append, value]
    rw [skipWs_head _ (by decide)]
    simp only
    rw [if_neg (by decide), if_neg (by decide), if_true]
    obtain ⟨c, u, h1, h2⟩ := hhd
    rw [← elems_skipped, h1] at he
    rw [h1]
    split
    · rename_i h; cases h; exact absurd rfl h2
    · rw [he]; rfl
  | obj l hl hw ht ih =>
    intro r n hr hn
    obtain ⟨n, rfl⟩ : ∃ m, n = m + 1 := ⟨n - 1, by simp at hn; omega⟩
    simp only [List.length_cons, List.length_append, List.length_nil] at hn
    have he := members_complete l hl hw ih r n (by omega)
    have hhd : ∃ c u, skipWs (commas (l.map Member.src) ++ 125 :: r) = c :: u ∧ c ≠ 125 := by
      cases l with
      | nil => exact absurd rfl hl
      | cons e l =>
        have : ∃ x, commas ((e :: l).map Member.src) = e.pre ++ 34 :: x := by
          cases l with
          | nil => exact ⟨e.quoted ++ 34 :: (e.mid ++ 58 :: e.value.src), by simp [commas, Member.src]⟩
          | cons b l => exact ⟨e.quoted ++ 34 :: (e.mid ++ 58 :: e.value.src) ++ 44 :: commas ((b :: l).map Member.src), by simp [commas, Member.src]⟩
        obtain ⟨x, hx⟩ := this
        exact ⟨34, x ++ 125 :: r, by rw [hx, List.append_assoc, List.cons_append, skipWs_to (hw e (by simp)).1 _ (by decide)], by decide⟩
    simp only [List.cons_append, List.append_assoc, List.nil_append, value]
    rw [skipWs_head _ (by decide)]
    simp only
    rw [if_neg (by decide), if_true]
    obtain ⟨c, u, h1, h2⟩ := hhd
    rw [← members_skipped, h1] at he
    rw [h1]
    split
    · rename_i h; cases h; exact absurd rfl h2
    · rw [he]; rfl

theorem skipWs_nil_iff (s : Str) : skipWs s = [] ↔ Ws s := by
  constructor
  · intro h
    obtain ⟨w, h1, h2⟩ := skipWs_split s
    rw [h, List.append_nil] at h1
    exact h1 ▸ h2
  · intro h
    have := skipWs_over h []
    rw [List.append_nil] at this
    exact this

/-- The reader of json.Unmarshal accepts the JSON documents and reads the values the grammar gives them. -/
theorem parse_iff (t : Str) (j : Json) : parse t = some j ↔ Doc t j := by
  constructor
  · intro h
    simp only [parse] at h
    split at h
    · rename_i j' r hv
      split at h
      · rename_i hr
        cases h
        obtain ⟨a, v, rfl, ha, ht⟩ := (read_sound _).1 _ _ _ hv
        exact ⟨a, v, r, rfl, ha, (skipWs_nil_iff r).1 hr, ht⟩
      · cases h
    · cases h
  · rintro ⟨a, v, b, rfl, ha, hb, ht⟩
    simp only [parse, List.append_assoc]
    rw [value_ws ha, read_complete ht b _ (fun _ => stop_ws_end hb) (by simp only [List.length_append]; omega)]
    simp only
    rw [if_pos ((skipWs_nil_iff b).2 hb)]

theorem parse_none_iff (t : Str) : parse t = none ↔ ∀ j, ¬ Doc t j := by
  constructor
  · intro h j hj
    rw [(parse_iff t j).2 hj] at h
    cases h
  · intro h
    cases hp : parse t with
    | none => rfl
    | some j => exact absurd ((parse_iff t j).1 hp) (h j)

/-- A document has one value. -/
theorem doc_unique {t : Str} {j j' : Json} (h : Doc t j) (h' : Doc t j') : j = j' :=
  Option.some.inj (((parse_iff t j).2 h).symm.trans ((parse_iff t j').2 h'))

/-- What is printed is a JSON document. -/
theorem render_doc (j : Json) (h : NumOk j) : Doc (render j) (clean j) := (parse_iff _ _).1 (parse_render j h)

example : Doc (go!" {\"a\": [1, -2.5e+3 , true], \"\\u00e9\\n\":null}\n") (.obj [(go!"a", .arr [.num (go!"1"), .num (go!"-2.5e+3"), .bool true]),
    ([0xC3, 0xA9, 10], .null)]) := (parse_iff _ _).1 (by rfl)

example : ∀ j, ¬ Doc (go!"[1,]") j := (parse_none_iff _).1 (by decide +kernel)

/-- What the reader of json.Decoder.Decode returns is the value of a JSON text at the front of the stream. -/
theorem parseFirst_sound {t : Str} {j : Json} (h : parseFirst t = some j) : Front t j := by
  simp only [parseFirst, Option.map_eq_some_iff] at h
  obtain ⟨⟨j', r⟩, h1, h2⟩ := h
  cases h2
  obtain ⟨a, v, h3, h4, h5⟩ := (read_sound _).1 _ _ _ h1
  exact ⟨a, v, r, h3, h4, h5⟩

theorem parseFirst_complete {a v r : Str} {j : Json} (ha : Ws a) (h : Text v j) (hr : Stop r) : parseFirst (a ++ v ++ r) = some j := by
  simp only [parseFirst, List.append_assoc]
  rw [value_ws ha, read_complete h r _ (fun _ => hr) (by simp only [List.length_append]; omega)]
  rfl

theorem parseFirst_none {t : Str} (h : ∀ j, ¬ Front t j) : parseFirst t = none := by
  cases hp : parseFirst t with
  | none => rfl
  | some j => exact absurd (parseFirst_sound hp) (h j)

/-- A stream on which the reader fails, and whose first character begins no number, begins with no JSON text. -/
theorem no_front {t : Str} (h : parseFirst t = none) (hd : ∀ c ∈ (skipWs t).head?, c ≠ 45 ∧ isDigit c = false) (j : Json) :
    ¬ Front t j := by
  rintro ⟨a, v, r, rfl, ha, ht⟩
  have hn : ¬ ∃ x, j = .num x := by
    rintro ⟨x, rfl⟩
    cases ht with
    | num _ h =>
      obtain ⟨c, u, h1, h2⟩ := num_head h
      have := hd c (by rw [List.append_assoc, skipWs_over ha, h1, List.cons_append, skipWs_head _ (digit_plain h2).1]; simp)
      rcases h2 with h2 | h2
      · exact this.1 h2
      · rw [this.2] at h2; cases h2
  simp only [parseFirst, List.append_assoc] at h
  rw [value_ws ha, read_complete ht r _ (fun x => absurd x hn) (by simp only [List.length_append]; omega)] at h
  cases h

theorem decode_misfit {α : Type} {z : α} {d : Dec α} {t : Str} (h : ∀ j, Front t j → (d z j).2 = false) : (decode z d t).2 = false := by
  unfold decode
  cases hp : parseFirst t with
  | none => rfl
  | some j => exact h j (parseFirst_sound hp)

theorem unmarshal_doc {α : Type} {z : α} {d : Dec α} {t : Str} {x : α} :
    unmarshal z d t = (x, true) ↔ ∃ j, Doc t j ∧ d z j = (x, true) := by
  unfold unmarshal
  cases hp : parse t with
  | none =>
    constructor
    · intro h; cases (Prod.mk.inj h).2
    · rintro ⟨j, h1, _⟩; exact absurd h1 ((parse_none_iff t).1 hp j)
  | some j =>
    constructor
    · intro h; exact ⟨j, (parse_iff t j).1 hp, h⟩
    · rintro ⟨j', h1, h2⟩
      rw [doc_unique ((parse_iff t j).1 hp) h1]
      exact h2

end CTng.Json
