import Verif.Model.Json
import Verif.Base.StrLemmas
import Verif.Proofs.Itoa
/- What encoding/json writes it reads back. -/
set_option autoImplicit false

namespace CTng
namespace Json

/-! ### UTF-8 -/

theorem runeLen_ascii (c : UInt8) (t : Str) (h : c < 128) : runeLen (c :: t) = 1 := by
  simp [runeLen, h]

/-- A rune is recognised from its own bytes. -/
theorem runeLen_front (c : UInt8) (t : Str) (k : Nat) (h : runeLen (c :: t) = k + 1) :
    k ≤ t.length ∧ ∀ r, runeLen (c :: (t.take k ++ r)) = k + 1 := by
  simp only [runeLen] at h ⊢
  by_cases h1 : c < 128
  · simp only [if_pos h1] at h ⊢
    exact ⟨by omega, fun r => h⟩
  · simp only [if_neg h1] at h ⊢
    by_cases h2 : 194 ≤ c ∧ c ≤ 223
    · simp only [if_pos h2] at h ⊢
      match t, h with
      | [], h => simp [tail2] at h
      | a :: t', h =>
        by_cases h3 : cont a = true
        · simp only [tail2, h3, if_true] at h
          obtain rfl : k = 1 := by omega
          exact ⟨by simp, fun r => by simp [tail2, h3]⟩
        · simp [tail2, h3] at h
    · simp only [if_neg h2] at h ⊢
      by_cases h3 : 224 ≤ c ∧ c ≤ 239
      · simp only [if_pos h3] at h ⊢
        match t, h with
        | [], h => simp [tail3] at h
        | [_], h => simp [tail3] at h
        | a :: b :: t', h =>
          by_cases h4 : (second3 c a && cont b) = true
          · simp only [tail3, h4, if_true] at h
            obtain rfl : k = 2 := by omega
            exact ⟨by simp, fun r => by simp [tail3] at h4 ⊢; simp [h4]⟩
          · rw [show tail3 c (a :: b :: t') = (second3 c a && cont b) from rfl, if_neg h4] at h
            cases h
      · simp only [if_neg h3] at h ⊢
        by_cases h4 : 240 ≤ c ∧ c ≤ 244
        · simp only [if_pos h4] at h ⊢
          match t, h with
          | [], h => simp [tail4] at h
          | [_], h => simp [tail4] at h
          | [_, _], h => simp [tail4] at h
          | a :: b :: d :: t', h =>
            by_cases h5 : (second4 c a && cont b && cont d) = true
            · simp only [tail4, h5, if_true] at h
              obtain rfl : k = 3 := by omega
              exact ⟨by simp, fun r => by simp [tail4] at h5 ⊢; simp [h5]⟩
            · rw [show tail4 c (a :: b :: d :: t') = (second4 c a && cont b && cont d) from rfl, if_neg h5] at h
              cases h
        · simp only [if_neg h4] at h
          cases h

/-! ### Strings -/

/-- The piece `p` of a string text stands for the bytes `b`. -/
def Piece (p b : Str) : Prop := p ≠ [] ∧ ∀ m r, strBody (m + 1) (p ++ r) = (strBody m r).map fun x => (b ++ x.1, x.2)

theorem piece_of_chunk (c : UInt8) (p b : Str) (hc : c ≠ 34) (h : ∀ r, chunk (c :: (p ++ r)) = some (b, r)) : Piece (c :: p) b := by
  refine ⟨by simp, fun m r => ?_⟩
  simp only [List.cons_append, strBody, if_neg hc, h r]

theorem piece_plain (c : UInt8) (h1 : c ≠ 34) (h2 : c ≠ 92) (h3 : ¬ c < 32) (h4 : c < 128) : Piece [c] [c] := by
  refine piece_of_chunk c [] [c] h1 fun r => ?_
  simp [chunk, h2, h3, runeLen_ascii c _ h4]

theorem piece_rune (c : UInt8) (t : Str) (k : Nat) (h : runeLen (c :: t) = k + 1) (hc : ¬ c < 128) : Piece (c :: t.take k) (c :: t.take k) := by
  have h34 : c ≠ 34 := by rintro rfl; exact hc (by decide)
  have h92 : c ≠ 92 := by rintro rfl; exact hc (by decide)
  have h32 : ¬ c < 32 := by
    intro h'
    apply hc
    simp only [UInt8.lt_iff_toNat_lt] at *
    have : (32 : UInt8).toNat = 32 := rfl
    have : (128 : UInt8).toNat = 128 := rfl
    omega
  obtain ⟨hk, hf⟩ := runeLen_front c t k h
  refine piece_of_chunk c _ _ h34 fun r => ?_
  simp only [chunk, if_neg h92, if_neg h32, hf r, Option.some.injEq, Prod.mk.injEq, List.cons.injEq, true_and]
  have hl : (t.take k).length = k := by simp [hk]
  constructor
  · rw [List.take_append_of_le_length (by omega), List.take_of_length_le (by omega)]
  · rw [List.drop_append_of_le_length (by omega), List.drop_of_length_le (by omega), List.nil_append]

theorem hex4_ascii (c : UInt8) (r : Str) : hex4 (48 :: 48 :: hexDigit (c / 16) :: hexDigit (c % 16) :: r) = some (c.toNat, r) := by
  obtain ⟨_, _, h3, h4, h5⟩ := hexDigit_spec c
  have h0 : fromHexDigit 48 = some 0 := rfl
  simp only [hex4, h0, h3, h4, Option.some.injEq, Prod.mk.injEq, and_true]
  have h16 : (16 : UInt8).toNat = 16 := rfl
  have h00 : (0 : UInt8).toNat = 0 := rfl
  rw [UInt8.toNat_div, UInt8.toNat_mod, h16, h00]
  omega

theorem escape_u (t : Str) (n : Nat) (r : Str) (h : hex4 t = some (n, r)) (hn : ¬ (0xD800 ≤ n ∧ n < 0xE000)) :
    chunk (92 :: 117 :: t) = some (utf8Enc n, r) := by
  have h1 : chunk (92 :: 117 :: t) = escape (117 :: t) := rfl
  rw [h1]
  unfold escape
  simp only [h, if_neg hn]
  rfl

theorem piece_escByte (c : UInt8) (h : c < 128) : Piece (escByte c) [c] := by
  unfold escByte
  have hn : c.toNat < 128 := by simpa [UInt8.lt_iff_toNat_lt] using h
  split
  · rename_i h1
    refine piece_of_chunk 92 [c] [c] (by decide) fun r => ?_
    rcases h1 with rfl | rfl <;> rfl
  · split
    · rename_i h1; subst h1
      exact piece_of_chunk 92 [110] [10] (by decide) fun r => rfl
    · split
      · rename_i h1; subst h1
        exact piece_of_chunk 92 [114] [13] (by decide) fun r => rfl
      · split
        · rename_i h1; subst h1
          exact piece_of_chunk 92 [116] [9] (by decide) fun r => rfl
        · split
          · refine piece_of_chunk 92 (117 :: 48 :: 48 :: [hexDigit (c / 16), hexDigit (c % 16)]) [c] (by decide) fun r => ?_
            have h1 : ¬ (0xD800 ≤ c.toNat ∧ c.toNat < 0xE000) := by omega
            have h2 : utf8Enc c.toNat = [c] := by simp [utf8Enc, hn]
            rw [← h2]
            exact escape_u _ c.toNat r (hex4_ascii c r) h1
          · rename_i h1 h2 h3 h4 h5
            exact piece_plain c (fun h => h1 (.inl h)) (fun h => h1 (.inr h)) (fun h => h5 (.inl h)) h

theorem hex4_lit (a b c d : UInt8) (w x y z : UInt8) (n : Nat) (r : Str) (ha : fromHexDigit a = some w) (hb : fromHexDigit b = some x)
    (hc : fromHexDigit c = some y) (hd : fromHexDigit d = some z)
    (hn : w.toNat * 4096 + x.toNat * 256 + y.toNat * 16 + z.toNat = n) : hex4 (a :: b :: c :: d :: r) = some (n, r) := by
  simp only [hex4, ha, hb, hc, hd, hn]

theorem piece_u (a b c d : UInt8) (n : Nat) (out : Str) (h : ∀ r, hex4 (a :: b :: c :: d :: r) = some (n, r))
    (hn : ¬ (0xD800 ≤ n ∧ n < 0xE000)) (ho : utf8Enc n = out) : Piece [92, 117, a, b, c, d] out := by
  refine piece_of_chunk 92 [117, a, b, c, d] out (by decide) fun r => ?_
  rw [← ho]
  exact escape_u _ n r (h r) hn

theorem piece_replacement : Piece (go!"\\ufffd") replacement :=
  piece_u 102 102 102 100 65533 _ (fun r => hex4_lit _ _ _ _ 15 15 15 13 _ r (by decide) (by decide) (by decide) (by decide) (by decide))
    (by decide) (by decide +kernel)

theorem piece_2028 : Piece (go!"\\u2028") [226, 128, 168] :=
  piece_u 50 48 50 56 8232 _ (fun r => hex4_lit _ _ _ _ 2 0 2 8 _ r (by decide) (by decide) (by decide) (by decide) (by decide))
    (by decide) (by decide +kernel)

theorem piece_2029 : Piece (go!"\\u2029") [226, 128, 169] :=
  piece_u 50 48 50 57 8233 _ (fun r => hex4_lit _ _ _ _ 2 0 2 9 _ r (by decide) (by decide) (by decide) (by decide) (by decide))
    (by decide) (by decide +kernel)

theorem Piece.read {p b : Str} (h : Piece p b) (m : Nat) (rest : Str) (x : Str × Str) (hm : p.length < m)
    (hr : ∀ m', m - p.length ≤ m' → strBody m' rest = some x) : strBody m (p ++ rest) = some (b ++ x.1, x.2) := by
  have hp : 0 < p.length := List.length_pos_iff.2 h.1
  obtain ⟨m', rfl⟩ : ∃ m', m = m' + 1 := ⟨m - 1, by omega⟩
  rw [h.2, hr m' (by omega)]
  rfl

theorem strBody_end (m : Nat) (r : Str) (hm : 0 < m) : strBody m (34 :: r) = some ([], r) := by
  obtain ⟨m', rfl⟩ : ∃ m', m = m' + 1 := ⟨m - 1, by omega⟩
  simp [strBody]

/-- A written string reads back as its repaired form. -/
theorem strBody_quoteN (n : Nat) : ∀ (s : Str) (m : Nat) (r : Str), s.length ≤ n → (quoteN n s).length < m →
    strBody m (quoteN n s ++ 34 :: r) = some (sanitizeN n s, r) := by
  induction n with
  | zero =>
    intro s m r hs hm
    obtain rfl : s = [] := List.length_eq_zero_iff.1 (by omega)
    exact strBody_end m r (by simpa [quoteN] using hm)
  | succ n ih =>
    intro s m r hs hm
    cases s with
    | nil => exact strBody_end m r (by simpa [quoteN] using hm)
    | cons c t =>
      have ht : t.length ≤ n := by simpa using hs
      have key : ∀ (p b : Str) (s' : Str), Piece p b → s'.length ≤ n → quoteN (n + 1) (c :: t) = p ++ quoteN n s' →
          sanitizeN (n + 1) (c :: t) = b ++ sanitizeN n s' → strBody m (quoteN (n + 1) (c :: t) ++ 34 :: r) =
            some (sanitizeN (n + 1) (c :: t), r) := by
        intro p b s' hp hs' h1 h2
        rw [h1] at hm ⊢
        rw [h2, List.append_assoc]
        rw [List.length_append] at hm
        exact hp.read m _ (sanitizeN n s', r) (by omega) fun m' hm' => ih s' m' r hs' (by omega)
      by_cases hc : c < 128
      · exact key (escByte c) [c] t (piece_escByte c hc) ht (by simp [quoteN, hc]) (by simp [sanitizeN, runeLen_ascii c t hc])
      · cases hk : runeLen (c :: t) with
        | zero => exact key _ _ t piece_replacement ht (by simp [quoteN, hc, hk]) (by simp [sanitizeN, hk])
        | succ k =>
          have hd : (t.drop k).length ≤ n := by simp; omega
          have hs2 : sanitizeN (n + 1) (c :: t) = c :: t.take k ++ sanitizeN n (t.drop k) := by simp [sanitizeN, hk]
          have hq : quoteN (n + 1) (c :: t) = (if c = 226 ∧ t.take 2 = [128, 168] then go!"\\u2028"
              else if c = 226 ∧ t.take 2 = [128, 169] then go!"\\u2029"
              else c :: t.take k) ++ quoteN n (t.drop k) := by
            simp only [quoteN, if_neg hc, hk]
          by_cases h8 : c = 226 ∧ t.take 2 = [128, 168]
          · have hk2 : k = 2 := by
              obtain ⟨rfl, h8⟩ := h8
              match t, h8 with
              | a :: b :: t', h8 =>
                simp only [List.take_succ_cons, List.take_zero, List.cons.injEq, and_true] at h8
                obtain ⟨rfl, rfl⟩ := h8
                simp [runeLen, tail3, second3, cont] at hk
                omega
            subst hk2
            refine key (go!"\\u2028") (c :: t.take 2) (t.drop 2) ?_ hd (by rw [hq, if_pos h8]) hs2
            rw [h8.1, h8.2]
            exact piece_2028
          · by_cases h9 : c = 226 ∧ t.take 2 = [128, 169]
            · have hk2 : k = 2 := by
                obtain ⟨rfl, h9⟩ := h9
                match t, h9 with
                | a :: b :: t', h9 =>
                  simp only [List.take_succ_cons, List.take_zero, List.cons.injEq, and_true] at h9
                  obtain ⟨rfl, rfl⟩ := h9
                  simp [runeLen, tail3, second3, cont] at hk
                  omega
              subst hk2
              refine key (go!"\\u2029") (c :: t.take 2) (t.drop 2) ?_ hd (by rw [hq, if_neg h8, if_pos h9]) hs2
              rw [h9.1, h9.2]
              exact piece_2029
            · exact key _ _ _ (piece_rune c t k hk hc) hd (by rw [hq, if_neg h8, if_neg h9]) hs2

/-- A string without characters that need escaping stands for itself. -/
theorem strBody_plain (s : Str) (h : ∀ c ∈ s, c ≠ 34 ∧ c ≠ 92 ∧ ¬ c < 32 ∧ c < 128) : ∀ (m : Nat) (r : Str), s.length < m →
    strBody m (s ++ 34 :: r) = some (s, r) := by
  induction s with
  | nil => intro m r hm; exact strBody_end m r hm
  | cons c t ih =>
    intro m r hm
    obtain ⟨h1, h2, h3, h4⟩ := h c (by simp)
    exact (piece_plain c h1 h2 h3 h4).read m (t ++ 34 :: r) (t, r) (by simp at hm ⊢; omega)
      fun m' hm' => ih (fun x hx => h x (by simp [hx])) m' r (by simp at hm hm'; omega)

/-! ### Numbers -/

theorem isDigit_iff (c : UInt8) : isDigit c = true ↔ 48 ≤ c ∧ c ≤ 57 := by simp [isDigit]

/-- The text after a value: nothing, a separator or white space. -/
def Delim (r : Str) : Prop := ∀ c t, r = c :: t → isSpace c = true ∨ c = 44 ∨ c = 93 ∨ c = 125

theorem delim_facts {r : Str} (h : Delim r) : (digits r = ([], r)) ∧ fracPart r = some ([], r) ∧ expPart r = some ([], r) := by
  cases r with
  | nil => exact ⟨rfl, rfl, rfl⟩
  | cons c t =>
    have hc := h c t rfl
    simp only [isSpace, Bool.or_eq_true, decide_eq_true_eq] at hc
    rcases hc with ((((rfl | rfl) | rfl) | rfl) | rfl | rfl | rfl) <;> exact ⟨rfl, rfl, rfl⟩

theorem digits_append' (a r : Str) (h : ∀ c ∈ a, isDigit c = true) (hr : digits r = ([], r)) : digits (a ++ r) = (a, r) := by
  induction a with
  | nil => exact hr
  | cons c t ih =>
    simp only [List.cons_append, digits, h c (by simp), if_true, ih (fun x hx => h x (by simp [hx]))]

theorem digits_append (a r : Str) (h : ∀ c ∈ a, isDigit c = true) (hr : Delim r) : digits (a ++ r) = (a, r) :=
  digits_append' a r h (delim_facts hr).1

theorem itoa_isDigit (n : Nat) : ∀ c ∈ itoa n, isDigit c = true := fun c hc => (isDigit_iff c).2 (itoa_digit n c hc)

theorem itoa_ne_nil (n : Nat) : itoa n ≠ [] := by rw [itoa]; split <;> simp

/-- Only zero starts with a zero. -/
theorem itoa_head (n : Nat) (h : 0 < n) : ∃ c t, itoa n = c :: t ∧ c ≠ 48 := by
  induction n using Nat.strongRecOn with
  | ind n ih =>
    rw [itoa]
    split
    · rename_i hn
      refine ⟨_, [], rfl, fun he => ?_⟩
      have h1 : (UInt8.ofNat (48 + n)).toNat = 48 + n := by rw [UInt8.toNat_ofNat']; omega
      have h2 : (48 : UInt8).toNat = 48 := rfl
      rw [he] at h1
      omega
    · rename_i hn
      obtain ⟨c, t, hc, h0⟩ := ih (n / 10) (by omega) (by omega)
      exact ⟨c, t ++ [UInt8.ofNat (48 + n % 10)], by rw [hc]; rfl, h0⟩

theorem intPart_itoa' (n : Nat) (r : Str) (hr : digits r = ([], r)) : intPart (itoa n ++ r) = some (itoa n, r) := by
  by_cases h : n = 0
  · subst h
    have : itoa 0 = [48] := by rw [itoa]; rfl
    rw [this]
    rfl
  · obtain ⟨c, t, hc, h0⟩ := itoa_head n (by omega)
    have hd := itoa_isDigit n
    rw [hc] at hd ⊢
    simp only [List.cons_append, intPart, if_neg h0, hd c (by simp), if_true,
      digits_append' t r (fun x hx => hd x (by simp [hx])) hr]

theorem intPart_itoa (n : Nat) (r : Str) (hr : Delim r) : intPart (itoa n ++ r) = some (itoa n, r) :=
  intPart_itoa' n r (delim_facts hr).1

theorem isDigit_ne {c : UInt8} (h : isDigit c = true) (d : UInt8) (hd : isDigit d = false) : c ≠ d := by
  rintro rfl; rw [h] at hd; cases hd

theorem number_itoa (n : Nat) (r : Str) (hr : Delim r) : number (itoa n ++ r) = some (itoa n, r) := by
  have h1 := intPart_itoa n r hr
  obtain ⟨c, t, hc⟩ := List.exists_cons_of_ne_nil (itoa_ne_nil n)
  have hcd : isDigit c = true := itoa_isDigit n c (by simp [hc])
  have h45 : c ≠ 45 := isDigit_ne hcd 45 rfl
  obtain ⟨_, hf, he⟩ := delim_facts hr
  have hm : signPart (itoa n ++ r) = ([], itoa n ++ r) := by
    rw [hc]
    simp [signPart, h45]
  unfold number
  simp only [hm, h1, hf, he]
  simp

theorem number_neg (n : Nat) (r : Str) (hr : Delim r) : number (45 :: itoa n ++ r) = some (45 :: itoa n, r) := by
  have h1 := intPart_itoa n r hr
  obtain ⟨_, hf, he⟩ := delim_facts hr
  have hm : signPart (45 :: itoa n ++ r) = ([45], itoa n ++ r) := rfl
  unfold number
  simp only [hm, h1, hf, he]
  simp

theorem number_frac (n : Nat) (d r : Str) (hd : d ≠ []) (hdd : ∀ c ∈ d, isDigit c = true) (hr : Delim r) :
    number ((itoa n ++ 46 :: d) ++ r) = some (itoa n ++ 46 :: d, r) := by
  have h1 := intPart_itoa' n (46 :: d ++ r) rfl
  obtain ⟨c, t, hc⟩ := List.exists_cons_of_ne_nil (itoa_ne_nil n)
  have hcd : isDigit c = true := itoa_isDigit n c (by simp [hc])
  have h45 : c ≠ 45 := isDigit_ne hcd 45 rfl
  obtain ⟨_, _, he⟩ := delim_facts hr
  have hf : fracPart (46 :: d ++ r) = some (46 :: d, r) := by
    simp only [List.cons_append, fracPart, digits_append d r hdd hr, if_neg hd]
  have hm : signPart (itoa n ++ (46 :: d ++ r)) = ([], itoa n ++ (46 :: d ++ r)) := by
    rw [hc]
    simp [signPart, h45]
  rw [List.append_assoc]
  unfold number
  simp only [hm, h1, hf, he]
  simp

/-! ### Values -/

mutual
/-- A bound for the recursion that reads the value. -/
def size : Json → Nat
  | .arr l => 1 + sizeElems l
  | .obj l => 1 + sizeMembers l
  | _ => 1

def sizeElems : List Json → Nat
  | [] => 0
  | x :: t => 1 + size x + sizeElems t

def sizeMembers : List (Str × Json) → Nat
  | [] => 0
  | m :: t => 1 + sizeMember m + sizeMembers t

def sizeMember : Str × Json → Nat
  | (_, v) => size v
end

theorem skipWs_nonspace (c : UInt8) (t : Str) (h : isSpace c = false) : skipWs (c :: t) = c :: t := by simp [skipWs, h]

theorem delim_cons (c : UInt8) (t : Str) (h : c = 44 ∨ c = 93 ∨ c = 125) : Delim (c :: t) := by
  intro c' t' he
  cases he
  exact .inr h

theorem quote_read (s r : Str) : strBody ((quoteN s.length s ++ 34 :: r).length + 1) (quoteN s.length s ++ 34 :: r) = some (sanitize s, r) :=
  strBody_quoteN s.length s _ r (Nat.le_refl _) (by simp; omega)

theorem value_str (n : Nat) (s r : Str) : value (n + 1) (quote s ++ r) = some (.str (sanitize s), r) := by
  have hq : quote s ++ r = 34 :: (quoteN s.length s ++ 34 :: r) := by simp [quote]
  rw [hq, value]
  simp only [skipWs_nonspace 34 _ rfl]
  simp only [if_true]
  rw [quote_read]
  rfl

/-- No value is written with `]`, `}`, `,` or white space in front. -/
theorem render_head (j : Json) (h : NumOk j) : ∃ c t, render j = c :: t ∧ isSpace c = false ∧ c ≠ 93 ∧ c ≠ 125 := by
  cases j with
  | null => exact ⟨_, _, rfl, rfl, by decide, by decide⟩
  | bool b => cases b <;> exact ⟨_, _, rfl, rfl, by decide, by decide⟩
  | num tok =>
    simp only [NumOk] at h
    have key : ∀ (n : Nat) (r : Str), ∃ c t, itoa n ++ r = c :: t ∧ isSpace c = false ∧ c ≠ 93 ∧ c ≠ 125 := by
      intro n r
      obtain ⟨c, t, hc⟩ := List.exists_cons_of_ne_nil (itoa_ne_nil n)
      have hcd : isDigit c = true := itoa_isDigit n c (by simp [hc])
      refine ⟨c, t ++ r, by rw [hc]; rfl, ?_, isDigit_ne hcd _ rfl, isDigit_ne hcd _ rfl⟩
      have h1 := isDigit_ne hcd 32 rfl
      have h2 := isDigit_ne hcd 9 rfl
      have h3 := isDigit_ne hcd 13 rfl
      have h4 := isDigit_ne hcd 10 rfl
      simp [isSpace, h1, h2, h3, h4]
    rcases h with ⟨n, rfl⟩ | ⟨n, rfl⟩ | ⟨n, d, _, _, rfl⟩
    · have := key n []
      rwa [List.append_nil] at this
    · exact ⟨45, _, rfl, rfl, by decide, by decide⟩
    · exact key n (46 :: d)
  | str s => exact ⟨34, _, rfl, rfl, by decide, by decide⟩
  | arr l => exact ⟨91, _, rfl, rfl, by decide, by decide⟩
  | obj l => exact ⟨123, _, rfl, rfl, by decide, by decide⟩

theorem literal_append (p r : Str) : literal p (p ++ r) = some r := by
  induction p with
  | nil => cases r <;> rfl
  | cons a p ih => simp [literal, ih]

mutual
/-- What is written reads back, in any delimited context. -/
theorem value_render (j : Json) (n : Nat) (r : Str) (hn : size j ≤ n) (hj : NumOk j) (hr : Delim r) :
    value n (render j ++ r) = some (clean j, r) := by
  obtain ⟨n, rfl⟩ : ∃ n', n = n' + 1 := ⟨n - 1, by cases j <;> simp only [size] at hn <;> omega⟩
  match j, hn, hj with
  | .null, _, _ =>
    rw [value]
    simp [render, clean, skipWs, isSpace, literal]
  | .bool true, _, _ =>
    rw [value]
    simp [render, clean, skipWs, isSpace, literal]
  | .bool false, _, _ =>
    rw [value]
    simp [render, clean, skipWs, isSpace, literal]
  | .num tok, _, hj =>
    obtain ⟨c, t, hc, hs, _⟩ := render_head (.num tok) hj
    have hnum : number (tok ++ r) = some (tok, r) := by
      simp only [NumOk] at hj
      rcases hj with ⟨k, rfl⟩ | ⟨k, rfl⟩ | ⟨k, d, hd, hdd, rfl⟩
      · exact number_itoa k r hr
      · exact number_neg _ r hr
      · exact number_frac k d r hd hdd hr
    simp only [render] at hc
    have hcc : c = 45 ∨ isDigit c = true := by
      simp only [NumOk] at hj
      rcases hj with ⟨k, rfl⟩ | ⟨k, rfl⟩ | ⟨k, d, _, _, rfl⟩
      · exact .inr (itoa_isDigit k c (by simp [hc]))
      · left; simp only [List.cons.injEq] at hc; exact hc.1.symm
      · right
        obtain ⟨x, u, hx⟩ := List.exists_cons_of_ne_nil (itoa_ne_nil k)
        rw [hx, List.cons_append, List.cons.injEq] at hc
        exact itoa_isDigit k c (by rw [hx, hc.1]; simp)
    have hne : ∀ d : UInt8, d ≠ 45 → isDigit d = false → c ≠ d := by
      intro d h1 h2 h3
      subst h3
      rcases hcc with h | h
      · exact h1 h
      · rw [h] at h2; cases h2
    rw [value]
    simp only [render, clean, hc, List.cons_append] at hnum ⊢
    rw [skipWs_nonspace c _ hs]
    simp only [if_neg (hne 34 (by decide) rfl), if_neg (hne 123 (by decide) rfl), if_neg (hne 91 (by decide) rfl),
      if_neg (hne 116 (by decide) rfl), if_neg (hne 102 (by decide) rfl), if_neg (hne 110 (by decide) rfl)]
    rw [hnum]
    rfl
  | .str s, _, _ => simp only [render, clean]; exact value_str n s r
  | .arr [], _, _ =>
    rw [value]
    simp [render, renderElems, clean, cleanElems, skipWs, isSpace]
  | .arr (x :: l), hn, hj =>
    simp only [size] at hn
    have hj' : NumOkElems (x :: l) := by simpa only [NumOk] using hj
    have ih := elems_render (x :: l) n r (by omega) hj' (by simp)
    rw [value]
    simp only [render, clean, List.cons_append, List.append_assoc, List.nil_append]
    rw [skipWs_nonspace 91 _ rfl]
    obtain ⟨c, t, hc, hs, h93, _⟩ := render_head x (by simp only [NumOkElems] at hj'; exact hj'.1)
    obtain ⟨t', hre⟩ : ∃ t', renderElems (x :: l) ++ 93 :: r = c :: t' := by
      cases l <;> simp [renderElems, hc]
    rw [hre] at ih ⊢
    simp only [skipWs_nonspace c _ hs]
    simp only [if_neg (show (91 : UInt8) ≠ 34 by decide), if_neg (show (91 : UInt8) ≠ 123 by decide), if_true]
    split
    · rename_i h
      simp only [List.cons.injEq] at h
      exact absurd h.1 h93
    · rw [ih]; rfl
  | .obj [], _, _ =>
    rw [value]
    simp [render, renderMembers, clean, cleanMembers, skipWs, isSpace]
  | .obj (x :: l), hn, hj =>
    simp only [size] at hn
    have hj' : NumOkMembers (x :: l) := by simpa only [NumOk] using hj
    have ih := members_render (x :: l) n r (by omega) hj' (by simp)
    rw [value]
    simp only [render, clean, List.cons_append, List.append_assoc, List.nil_append]
    rw [skipWs_nonspace 123 _ rfl]
    obtain ⟨c, t, hc, hs, h125⟩ : ∃ c t, renderMembers (x :: l) ++ 125 :: r = c :: t ∧ isSpace c = false ∧ c ≠ 125 := by
      obtain ⟨k, v⟩ := x
      refine ⟨34, (renderMembers ((k, v) :: l) ++ 125 :: r).tail, ?_, rfl, by decide⟩
      cases l <;> simp [renderMembers, renderMember, quote]
    rw [hc] at ih ⊢
    simp only [skipWs_nonspace c _ hs]
    simp only [if_neg (show (123 : UInt8) ≠ 34 by decide), if_true]
    split
    · rename_i h
      simp only [List.cons.injEq] at h
      exact absurd h.1 h125
    · rw [ih]; rfl

theorem elems_render (l : List Json) (n : Nat) (r : Str) (hn : sizeElems l ≤ n) (hj : NumOkElems l) (hl : l ≠ []) :
    elems n (renderElems l ++ 93 :: r) = some (cleanElems l, r) := by
  match l, hn, hj, hl with
  | x :: t, hn, hj, _ =>
    simp only [sizeElems] at hn
    simp only [NumOkElems] at hj
    obtain ⟨n, rfl⟩ : ∃ n', n = n' + 1 := ⟨n - 1, by omega⟩
    rw [elems]
    cases t with
    | nil =>
      have h1 := value_render x n (93 :: r) (by omega) hj.1 (delim_cons _ _ (by decide))
      simp only [renderElems, List.append_assoc, List.nil_append, h1]
      simp [skipWs, isSpace, cleanElems]
    | cons y t =>
      have h1 := value_render x n (44 :: (renderElems (y :: t) ++ 93 :: r)) (by omega) hj.1 (delim_cons _ _ (by decide))
      have h2 := elems_render (y :: t) n r (by omega) hj.2 (by simp)
      have e : renderElems (x :: y :: t) ++ 93 :: r = render x ++ 44 :: (renderElems (y :: t) ++ 93 :: r) := by
        rw [renderElems]; simp
      rw [e, h1]
      simp only [skipWs_nonspace 44 _ rfl, if_true, h2, Option.map_some, cleanElems]

theorem members_render (l : List (Str × Json)) (n : Nat) (r : Str) (hn : sizeMembers l ≤ n) (hj : NumOkMembers l) (hl : l ≠ []) :
    members n (renderMembers l ++ 125 :: r) = some (cleanMembers l, r) := by
  match l, hn, hj, hl with
  | (k, v) :: t, hn, hj, _ =>
    simp only [sizeMembers, sizeMember] at hn
    simp only [NumOkMembers, NumOkMember] at hj
    obtain ⟨n, rfl⟩ : ∃ n', n = n' + 1 := ⟨n - 1, by omega⟩
    have hq : ∀ u, quote k ++ u = 34 :: (quoteN k.length k ++ 34 :: u) := fun u => by simp [quote]
    rw [members]
    cases t with
    | nil =>
      have h1 := value_render v n (125 :: r) (by omega) hj.1 (delim_cons _ _ (by decide))
      have e : renderMembers [(k, v)] ++ 125 :: r = quote k ++ 58 :: (render v ++ 125 :: r) := by
        rw [renderMembers, renderMember]; simp
      rw [e, hq]
      simp only [skipWs_nonspace 34 _ rfl, if_true, quote_read, skipWs_nonspace 58 _ rfl, h1]
      simp [skipWs, isSpace, cleanMembers, cleanMember]
    | cons y t =>
      have h1 := value_render v n (44 :: (renderMembers (y :: t) ++ 125 :: r)) (by omega) hj.1 (delim_cons _ _ (by decide))
      have h2 := members_render (y :: t) n r (by omega) hj.2 (by simp)
      have e : renderMembers ((k, v) :: y :: t) ++ 125 :: r =
          quote k ++ 58 :: (render v ++ 44 :: (renderMembers (y :: t) ++ 125 :: r)) := by
        rw [renderMembers, renderMember]; simp
      rw [e, hq]
      simp only [skipWs_nonspace 34 _ rfl, if_true, quote_read, skipWs_nonspace 58 _ rfl, h1, skipWs_nonspace 44 _ rfl, h2,
        Option.map_some, cleanMembers, cleanMember]
end

mutual
theorem size_le (j : Json) (h : NumOk j) : size j ≤ 2 * (render j).length := by
  match j, h with
  | .null, _ => simp [size, render]
  | .bool true, _ => simp [size, render]
  | .bool false, _ => simp [size, render]
  | .num tok, h =>
    obtain ⟨c, t, hc, _⟩ := render_head (.num tok) h
    rw [hc]; simp [size]; omega
  | .str s, _ => simp [size, render, quote]; omega
  | .arr l, h =>
    have := sizeElems_le l (by simpa only [NumOk] using h)
    simp [size, render]; omega
  | .obj l, h =>
    have := sizeMembers_le l (by simpa only [NumOk] using h)
    simp [size, render]; omega

theorem sizeElems_le (l : List Json) (h : NumOkElems l) : sizeElems l ≤ 2 * (renderElems l).length + 1 := by
  match l, h with
  | [], _ => simp [sizeElems]
  | x :: t, h =>
    simp only [NumOkElems] at h
    have h1 := size_le x h.1
    have h2 := sizeElems_le t h.2
    cases t with
    | nil => simp [sizeElems, renderElems] at *; omega
    | cons y t =>
      rw [sizeElems, renderElems]
      simp only [List.length_append, List.length_cons]
      omega

theorem sizeMembers_le (l : List (Str × Json)) (h : NumOkMembers l) : sizeMembers l ≤ 2 * (renderMembers l).length + 1 := by
  match l, h with
  | [], _ => simp [sizeMembers]
  | (k, v) :: t, h =>
    simp only [NumOkMembers, NumOkMember] at h
    have h1 := size_le v h.1
    have h2 := sizeMembers_le t h.2
    cases t with
    | nil => simp [sizeMembers, sizeMember, renderMembers, renderMember] at *; omega
    | cons y t =>
      rw [sizeMembers, sizeMember, renderMembers, renderMember]
      simp only [List.length_append, List.length_cons]
      omega
end

theorem delim_nil : Delim [] := fun _ _ h => by cases h

/-- json.Unmarshal of json.Marshal. -/
theorem parse_render (j : Json) (h : NumOk j) : parse (render j) = some (clean j) := by
  have := value_render j (2 * (render j).length + 2) [] (by have := size_le j h; omega) h delim_nil
  rw [List.append_nil] at this
  simp [parse, this, skipWs]

/-- json.Decoder.Decode of what json.Encoder.Encode writes (it adds a newline), whatever follows. -/
theorem parseFirst_render (j : Json) (h : NumOk j) (r : Str) : parseFirst (render j ++ 10 :: r) = some (clean j) := by
  have := value_render j (2 * (render j ++ 10 :: r).length + 2) (10 :: r) (by have := size_le j h; simp; omega) h
    (fun c t e => by cases e; exact .inl rfl)
  rw [parseFirst, this]
  rfl

theorem parseFirst_of_parse {s : Str} {j : Json} (h : parse s = some j) : parseFirst s = some j := by
  unfold parse at h
  unfold parseFirst
  split at h
  · rename_i j' r hv
    split at h
    · cases h; simp [hv]
    · cases h
  · cases h

end Json
end CTng
