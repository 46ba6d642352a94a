import Verif.Proofs.WireLaws
/- Valid UTF-8: what encoding/json reads is valid, whatever the text. -/
set_option autoImplicit false

namespace CTng
namespace Wire
open Json

/-- The bytes of one rune. -/
def RuneBytes (p : Str) : Prop := ∃ c t, p = c :: t ∧ ∀ r, runeLen (c :: (t ++ r)) = t.length + 1

/-- A sequence of runes. -/
inductive Runes : Str → Prop
  | nil : Runes []
  | cons (p s : Str) : RuneBytes p → Runes s → Runes (p ++ s)

theorem Runes.one {p : Str} (h : RuneBytes p) : Runes p := by
  have := Runes.cons p [] h .nil
  rwa [List.append_nil] at this

theorem Runes.append {a b : Str} (ha : Runes a) (hb : Runes b) : Runes (a ++ b) := by
  induction ha with
  | nil => exact hb
  | cons p s hp _ ih => rw [List.append_assoc]; exact .cons p _ hp ih

theorem runeBytes_front (c : UInt8) (t : Str) (k : Nat) (h : runeLen (c :: t) = k + 1) : RuneBytes (c :: t.take k) := by
  obtain ⟨h1, h2⟩ := runeLen_front c t k h
  exact ⟨c, t.take k, rfl, fun r => by rw [h2 r, List.length_take, Nat.min_eq_left h1]⟩

theorem runeBytes_replacement : RuneBytes replacement :=
  ⟨239, [191, 189], rfl, fun r => by simp [runeLen, tail3, second3, cont]⟩

theorem runeBytes_ascii (c : UInt8) (h : c < 128) : RuneBytes [c] := ⟨c, [], rfl, fun r => runeLen_ascii c r h⟩

theorem runes_sanitizeN (n : Nat) : ∀ s : Str, Runes (sanitizeN n s) := by
  induction n with
  | zero => intro s; exact .nil
  | succ n ih =>
    intro s
    cases s with
    | nil => exact .nil
    | cons c t =>
      rw [sanitizeN]
      split
      · exact .cons _ _ runeBytes_replacement (ih t)
      · rename_i k hk
        exact .cons _ _ (runeBytes_front c t k hk) (ih _)

theorem sanitizeN_runes {s : Str} (h : Runes s) : ∀ n, s.length ≤ n → sanitizeN n s = s := by
  induction h with
  | nil => intro n _; cases n <;> rfl
  | cons p s hp _ ih =>
    intro n hn
    obtain ⟨c, t, rfl, hr⟩ := hp
    cases n with
    | zero => simp at hn
    | succ n =>
      rw [List.cons_append, sanitizeN, hr s]
      simp only [List.take_left', List.drop_left']
      rw [ih n (by simp at hn; omega)]
      simp

theorem utf8_iff (s : Str) : Utf8 s ↔ Runes s :=
  ⟨fun h => h ▸ runes_sanitizeN _ s, fun h => sanitizeN_runes h _ (Nat.le_refl _)⟩

theorem Utf8.append {a b : Str} (ha : Utf8 a) (hb : Utf8 b) : Utf8 (a ++ b) :=
  (utf8_iff _).2 (((utf8_iff a).1 ha).append ((utf8_iff b).1 hb))

theorem Utf8.sanitize (s : Str) : Utf8 (sanitize s) := (utf8_iff _).2 (runes_sanitizeN _ s)

theorem Utf8.nil : Utf8 [] := rfl

theorem ofNat_toNat (n : Nat) (h : n < 256) : (UInt8.ofNat n).toNat = n := by simp; omega

theorem u8_le (a : Nat) (n : Nat) (h : n < 256) (ha : a < 256) (hle : a ≤ n) : UInt8.ofNat a ≤ UInt8.ofNat n := by
  rw [UInt8.le_iff_toNat_le, ofNat_toNat n h, ofNat_toNat a ha]; exact hle

theorem u8_not_lt (a n : Nat) (h : n < 256) (ha : a < 256) (hle : a ≤ n) : ¬ UInt8.ofNat n < UInt8.ofNat a := by
  rw [UInt8.lt_iff_toNat_lt, ofNat_toNat n h, ofNat_toNat a ha]; omega

theorem u8_eq (a n : Nat) (h : n < 256) (ha : a < 256) (e : UInt8.ofNat n = UInt8.ofNat a) : n = a := by
  have := congrArg UInt8.toNat e
  rwa [ofNat_toNat n h, ofNat_toNat a ha] at this

theorem cont_of (n : Nat) (h : n < 64) : cont (UInt8.ofNat (128 + n)) = true := by
  simp only [cont, Bool.and_eq_true, decide_eq_true_eq]
  exact ⟨u8_le 128 _ (by omega) (by omega) (by omega), u8_le _ 191 (by omega) (by omega) (by omega)⟩

/-- What utf8.EncodeRune writes. -/
theorem runeBytes_utf8Enc (n : Nat) : RuneBytes (utf8Enc n) := by
  unfold utf8Enc
  by_cases h1 : n < 0x80
  · rw [if_pos h1]
    refine runeBytes_ascii _ ?_
    rw [UInt8.lt_iff_toNat_lt, ofNat_toNat n (by omega)]
    exact h1
  rw [if_neg h1]
  by_cases h2 : n < 0x800
  · rw [if_pos h2]
    refine ⟨_, _, rfl, fun r => ?_⟩
    have a1 : ¬ UInt8.ofNat (0xC0 + n / 64) < 128 := u8_not_lt 128 _ (by omega) (by omega) (by omega)
    have a2 : (194 : UInt8) ≤ UInt8.ofNat (0xC0 + n / 64) := u8_le 194 _ (by omega) (by omega) (by omega)
    have a3 : UInt8.ofNat (0xC0 + n / 64) ≤ (223 : UInt8) := u8_le _ 223 (by omega) (by omega) (by omega)
    have a4 := cont_of (n % 64) (by omega)
    have a5 : tail2 (UInt8.ofNat (0x80 + n % 64) :: r) = true := a4
    simp only [runeLen, a1, if_false, a2, a3, and_self, if_true, List.cons_append, List.nil_append, a5]
    rfl
  rw [if_neg h2]
  by_cases h3 : (0xD800 ≤ n ∧ n < 0xE000) ∨ 0x10FFFF < n
  · rw [if_pos h3]; exact runeBytes_replacement
  rw [if_neg h3]
  by_cases h4 : n < 0x10000
  · rw [if_pos h4]
    refine ⟨_, _, rfl, fun r => ?_⟩
    have a1 : ¬ UInt8.ofNat (0xE0 + n / 4096) < 128 := u8_not_lt 128 _ (by omega) (by omega) (by omega)
    have a2 : ¬ UInt8.ofNat (0xE0 + n / 4096) ≤ 223 := by
      rw [UInt8.le_iff_toNat_le, ofNat_toNat _ (by omega)]
      have : (223 : UInt8).toNat = 223 := rfl
      omega
    have a3 : (224 : UInt8) ≤ UInt8.ofNat (0xE0 + n / 4096) := u8_le 224 _ (by omega) (by omega) (by omega)
    have a4 : UInt8.ofNat (0xE0 + n / 4096) ≤ (239 : UInt8) := u8_le _ 239 (by omega) (by omega) (by omega)
    have a5 := cont_of (n % 64) (by omega)
    have a6 := cont_of (n / 64 % 64) (by omega)
    have a7 : second3 (UInt8.ofNat (0xE0 + n / 4096)) (UInt8.ofNat (0x80 + n / 64 % 64)) = true := by
      unfold second3
      split
      · rename_i e
        have := u8_eq 224 _ (by omega) (by omega) e
        simp only [Bool.and_eq_true, decide_eq_true_eq]
        exact ⟨u8_le 160 _ (by omega) (by omega) (by omega), u8_le _ 191 (by omega) (by omega) (by omega)⟩
      · split
        · rename_i e
          have := u8_eq 237 _ (by omega) (by omega) e
          simp only [Bool.and_eq_true, decide_eq_true_eq]
          exact ⟨u8_le 128 _ (by omega) (by omega) (by omega), u8_le _ 159 (by omega) (by omega) (by omega)⟩
        · exact a6
    simp only [runeLen, a1, if_false, a2, and_false, a3, a4, and_self, if_true, List.cons_append, List.nil_append, tail3, a7,
      Bool.true_and]
    rw [if_pos a5]; rfl
  · rw [if_neg h4]
    refine ⟨_, _, rfl, fun r => ?_⟩
    have a1 : ¬ UInt8.ofNat (0xF0 + n / 262144) < 128 := u8_not_lt 128 _ (by omega) (by omega) (by omega)
    have a2 : ¬ UInt8.ofNat (0xF0 + n / 262144) ≤ 223 := by
      rw [UInt8.le_iff_toNat_le, ofNat_toNat _ (by omega)]
      have : (223 : UInt8).toNat = 223 := rfl
      omega
    have a2' : ¬ UInt8.ofNat (0xF0 + n / 262144) ≤ 239 := by
      rw [UInt8.le_iff_toNat_le, ofNat_toNat _ (by omega)]
      have : (239 : UInt8).toNat = 239 := rfl
      omega
    have a3 : (240 : UInt8) ≤ UInt8.ofNat (0xF0 + n / 262144) := u8_le 240 _ (by omega) (by omega) (by omega)
    have a4 : UInt8.ofNat (0xF0 + n / 262144) ≤ (244 : UInt8) := u8_le _ 244 (by omega) (by omega) (by omega)
    have a5 := cont_of (n % 64) (by omega)
    have a6 := cont_of (n / 64 % 64) (by omega)
    have a7 := cont_of (n / 4096 % 64) (by omega)
    have a8 : second4 (UInt8.ofNat (0xF0 + n / 262144)) (UInt8.ofNat (0x80 + n / 4096 % 64)) = true := by
      unfold second4
      split
      · rename_i e
        have := u8_eq 240 _ (by omega) (by omega) e
        simp only [Bool.and_eq_true, decide_eq_true_eq]
        exact ⟨u8_le 144 _ (by omega) (by omega) (by omega), u8_le _ 191 (by omega) (by omega) (by omega)⟩
      · split
        · rename_i e
          have := u8_eq 244 _ (by omega) (by omega) e
          simp only [Bool.and_eq_true, decide_eq_true_eq]
          exact ⟨u8_le 128 _ (by omega) (by omega) (by omega), u8_le _ 143 (by omega) (by omega) (by omega)⟩
        · exact a7
    simp only [runeLen, a1, if_false, a2, a2', and_false, a3, a4, and_self, if_true, List.cons_append, List.nil_append, tail4, a8,
      Bool.true_and]
    rw [if_pos (by rw [a5]; rw [Bool.and_true]; exact a6)]; rfl

theorem runeBytes_escape (s : Str) (b r : Str) (h : escape s = some (b, r)) : RuneBytes b := by
  have asc : ∀ c : UInt8, c < 128 → RuneBytes [c] := runeBytes_ascii
  cases s with
  | nil => cases h
  | cons c t =>
    simp only [escape] at h
    by_cases h0 : c = 34 ∨ c = 92 ∨ c = 47
    · rw [if_pos h0] at h; cases h
      exact asc c (by rcases h0 with rfl | rfl | rfl <;> decide)
    rw [if_neg h0] at h
    by_cases h1 : c = 98
    · rw [if_pos h1] at h; cases h; exact asc 8 (by decide)
    rw [if_neg h1] at h
    by_cases h2 : c = 102
    · rw [if_pos h2] at h; cases h; exact asc 12 (by decide)
    rw [if_neg h2] at h
    by_cases h3 : c = 110
    · rw [if_pos h3] at h; cases h; exact asc 10 (by decide)
    rw [if_neg h3] at h
    by_cases h4 : c = 114
    · rw [if_pos h4] at h; cases h; exact asc 13 (by decide)
    rw [if_neg h4] at h
    by_cases h5 : c = 116
    · rw [if_pos h5] at h; cases h; exact asc 9 (by decide)
    rw [if_neg h5] at h
    by_cases h6 : c = 117
    · rw [if_pos h6] at h
      cases hx : hex4 t with
      | none => rw [hx] at h; cases h
      | some x =>
        obtain ⟨n, r'⟩ := x
        rw [hx] at h
        simp only at h
        split at h
        · generalize (if n < 0xDC00 then lowHalf r' else none) = q at h
          cases q with
          | none => simp only [Option.some.injEq, Prod.mk.injEq] at h; rw [← h.1]; exact runeBytes_replacement
          | some y =>
            obtain ⟨m, r''⟩ := y
            simp only [Option.some.injEq, Prod.mk.injEq] at h
            rw [← h.1]; exact runeBytes_utf8Enc _
        · simp only [Option.some.injEq, Prod.mk.injEq] at h
          rw [← h.1]; exact runeBytes_utf8Enc _
    · rw [if_neg h6] at h; cases h

theorem runeBytes_chunk (s b r : Str) (h : chunk s = some (b, r)) : RuneBytes b := by
  cases s with
  | nil => cases h
  | cons c t =>
    simp only [chunk] at h
    split at h
    · exact runeBytes_escape t b r h
    · split at h
      · cases h
      · split at h
        · cases h; exact runeBytes_replacement
        · rename_i k hk
          cases h; exact runeBytes_front c t k hk

theorem runes_strBody (n : Nat) : ∀ (s b r : Str), strBody n s = some (b, r) → Runes b := by
  induction n with
  | zero => intro s b r h; cases h
  | succ n ih =>
    intro s b r h
    cases s with
    | nil => cases h
    | cons c t =>
      simp only [strBody] at h
      split at h
      · cases h; exact .nil
      · cases hc : chunk (c :: t) with
        | none => rw [hc] at h; cases h
        | some x =>
          obtain ⟨b1, r1⟩ := x
          rw [hc] at h
          simp only at h
          cases hb : strBody n r1 with
          | none => rw [hb] at h; cases h
          | some y =>
            obtain ⟨b2, r2⟩ := y
            rw [hb] at h
            simp only [Option.map_some, Option.some.injEq, Prod.mk.injEq] at h
            rw [← h.1]
            exact .cons _ _ (runeBytes_chunk _ _ _ hc) (ih _ _ _ hb)

/-! ### Values -/

mutual
/-- Every string of the value is valid UTF-8. -/
def Strs : Json → Prop
  | .str s => Utf8 s
  | .arr l => StrsElems l
  | .obj l => StrsMembers l
  | _ => True

def StrsElems : List Json → Prop
  | [] => True
  | x :: t => Strs x ∧ StrsElems t

def StrsMembers : List (Str × Json) → Prop
  | [] => True
  | m :: t => StrsMember m ∧ StrsMembers t

def StrsMember : Str × Json → Prop
  | (k, v) => Utf8 k ∧ Strs v
end

theorem strs_read (n : Nat) : (∀ s j r, value n s = some (j, r) → Strs j) ∧ (∀ s l r, elems n s = some (l, r) → StrsElems l) ∧
    ∀ s l r, members n s = some (l, r) → StrsMembers l := by
  induction n with
  | zero =>
    refine ⟨?_, ?_, ?_⟩
    · intro s j r h; rw [value] at h; cases h
    · intro s j r h; rw [elems] at h; cases h
    · intro s j r h; rw [members] at h; cases h
  | succ n ih =>
    obtain ⟨hv, he, hm⟩ := ih
    refine ⟨?_, ?_, ?_⟩
    · intro s j r h
      rw [value] at h
      cases hs : skipWs s with
      | nil => rw [hs] at h; cases h
      | cons c t =>
        rw [hs] at h
        simp only at h
        by_cases h1 : c = 34
        · rw [if_pos h1] at h
          cases hb : strBody (t.length + 1) t with
          | none => rw [hb] at h; cases h
          | some x =>
            rw [hb] at h; cases h
            exact (utf8_iff _).2 (runes_strBody _ _ _ _ hb)
        rw [if_neg h1] at h
        by_cases h2 : c = 123
        · rw [if_pos h2] at h
          split at h
          · cases h; trivial
          · cases hb : members n (skipWs t) with
            | none => rw [hb] at h; cases h
            | some x => rw [hb] at h; cases h; exact hm _ _ _ hb
        rw [if_neg h2] at h
        by_cases h3 : c = 91
        · rw [if_pos h3] at h
          split at h
          · cases h; trivial
          · cases hb : elems n (skipWs t) with
            | none => rw [hb] at h; cases h
            | some x => rw [hb] at h; cases h; exact he _ _ _ hb
        rw [if_neg h3] at h
        by_cases h4 : c = 116
        · rw [if_pos h4] at h
          cases hb : literal (go!"rue") t <;> rw [hb] at h <;> cases h
          trivial
        rw [if_neg h4] at h
        by_cases h5 : c = 102
        · rw [if_pos h5] at h
          cases hb : literal (go!"alse") t <;> rw [hb] at h <;> cases h
          trivial
        rw [if_neg h5] at h
        by_cases h6 : c = 110
        · rw [if_pos h6] at h
          cases hb : literal (go!"ull") t <;> rw [hb] at h <;> cases h
          trivial
        rw [if_neg h6] at h
        cases hb : number (c :: t) <;> rw [hb] at h <;> cases h
        trivial
    · intro s l r h
      rw [elems] at h
      cases hb : value n s with
      | none => rw [hb] at h; cases h
      | some x =>
        obtain ⟨v, r1⟩ := x
        rw [hb] at h
        simp only at h
        have h0 := hv _ _ _ hb
        cases hs : skipWs r1 with
        | nil => rw [hs] at h; cases h
        | cons c t =>
          rw [hs] at h
          simp only at h
          split at h
          · cases hb' : elems n t with
            | none => rw [hb'] at h; cases h
            | some y => rw [hb'] at h; cases h; exact ⟨h0, he _ _ _ hb'⟩
          · split at h
            · cases h; exact ⟨h0, trivial⟩
            · cases h
    · intro s l r h
      rw [members] at h
      cases hs : skipWs s with
      | nil => rw [hs] at h; cases h
      | cons c t =>
        rw [hs] at h
        simp only at h
        split at h
        · cases hb : strBody (t.length + 1) t with
          | none => rw [hb] at h; cases h
          | some x =>
            obtain ⟨k, r1⟩ := x
            rw [hb] at h
            simp only at h
            have hk : Utf8 k := (utf8_iff _).2 (runes_strBody _ _ _ _ hb)
            cases hs1 : skipWs r1 with
            | nil => rw [hs1] at h; cases h
            | cons c1 t1 =>
              rw [hs1] at h
              simp only at h
              split at h
              · cases hb1 : value n t1 with
                | none => rw [hb1] at h; cases h
                | some x1 =>
                  obtain ⟨v, r2⟩ := x1
                  rw [hb1] at h
                  simp only at h
                  have h0 := hv _ _ _ hb1
                  cases hs2 : skipWs r2 with
                  | nil => rw [hs2] at h; cases h
                  | cons c2 t2 =>
                    rw [hs2] at h
                    simp only at h
                    split at h
                    · cases hb' : members n t2 with
                      | none => rw [hb'] at h; cases h
                      | some y => rw [hb'] at h; cases h; exact ⟨⟨hk, h0⟩, hm _ _ _ hb'⟩
                    · split at h
                      · cases h; exact ⟨⟨hk, h0⟩, trivial⟩
                      · cases h
              · cases h
        · cases h

theorem strs_parse {s : Str} {j : Json} (h : parse s = some j) : Strs j := by
  unfold parse at h
  split at h
  · rename_i j' r hv
    split at h
    · cases h; exact (strs_read _).1 _ _ _ hv
    · cases h
  · cases h

theorem strs_parseFirst {s : Str} {j : Json} (h : parseFirst s = some j) : Strs j := by
  unfold parseFirst at h
  cases hv : value (2 * s.length + 2) s with
  | none => rw [hv] at h; cases h
  | some x => rw [hv] at h; cases h; exact (strs_read _).1 _ _ _ hv

/-! ### Objects -/

theorem ofStr_toStr_ofStr (s : Str) : (GType.ofStr s).toStr = s ∧ GType.ofStr (GType.ofStr s).toStr = GType.ofStr s := by
  have h : (GType.ofStr s).toStr = s := by
    unfold GType.ofStr
    repeat' split
    all_goals first | (rename_i h; exact h.symm) | rfl
  exact ⟨h, by rw [h]⟩

theorem dStr_utf8 {cur : Str} {j : Json} (hc : Utf8 cur) (hj : Strs j) : Utf8 (dStr cur j).1 := by
  cases j <;> first | exact hc | exact hj

theorem strsElems_mem {l : List Json} (h : StrsElems l) : ∀ j ∈ l, Strs j := by
  induction l with
  | nil => intro j hj; cases hj
  | cons x t ih =>
    intro j hj
    rcases List.mem_cons.1 hj with rfl | hj
    · exact h.1
    · exact ih h.2 j hj

theorem dElems_utf8 (l : List Json) (hl : StrsElems l) : ∀ cur : List Str, (∀ s ∈ cur, Utf8 s) →
    ∀ s ∈ (dElems [] dStr cur l).1, Utf8 s := by
  induction l with
  | nil => intro cur _ s hs; cases hs
  | cons j t ih =>
    intro cur hc s hs
    simp only [dElems, List.mem_cons] at hs
    rcases hs with rfl | hs
    · refine dStr_utf8 ?_ hl.1
      cases cur with
      | nil => exact Utf8.nil
      | cons a b => exact hc a (by simp)
    · exact ih hl.2 cur.tail (fun x hx => hc x (List.mem_of_mem_tail hx)) s hs

theorem dList_utf8 {cur : List Str} {j : Json} (hc : ∀ s ∈ cur, Utf8 s) (hj : Strs j) : ∀ s ∈ (dList [] dStr cur j).1, Utf8 s := by
  cases j with
  | arr l => exact dElems_utf8 l hj cur hc
  | null => intro s hs; cases hs
  | _ => exact hc

theorem dAt_utf8 {cur : Str} {l : List Json} (hc : Utf8 cur) (hl : StrsElems l) (i : Nat) : Utf8 (dAt cur l i).1 := by
  unfold dAt
  split
  · rename_i j hj
    exact dStr_utf8 hc (strsElems_mem hl j (List.mem_of_getElem? hj))
  · exact Utf8.nil

theorem foldl_dMember {α : Type} (names : List Str) (set : Nat → Dec α) (I : α → Prop)
    (hs : ∀ i a j, I a → Strs j → I (set i a j).1) : ∀ (l : List (Str × Json)) (acc : α × Bool), StrsMembers l → I acc.1 →
    I (l.foldl (dMember names set) acc).1 := by
  intro l
  induction l with
  | nil => intro acc _ h; exact h
  | cons m t ih =>
    intro acc hl h
    refine ih _ hl.2 ?_
    unfold dMember
    split
    · exact h
    · obtain ⟨k, v⟩ := m
      have h1 := hl.1
      rw [StrsMember] at h1
      exact hs _ _ _ h h1.2

theorem dStruct_keeps {α : Type} (names : List Str) (set : Nat → Dec α) (I : α → Prop)
    (hs : ∀ i a j, I a → Strs j → I (set i a j).1) (cur : α) (j : Json) (hj : Strs j) (h : I cur) :
    I (dStruct names set cur j).1 := by
  cases j with
  | obj l => exact foldl_dMember names set I hs l _ hj h
  | _ => exact h

/-- Whatever a JSON value holds, the object decoded from it is one that encoding/json keeps. -/
theorem dGossip_utf8 (cur : GossipObj) (j : Json) (hj : Strs j) (h : ObjOk cur) : ObjOk (dGossip cur j).1 := by
  refine dStruct_keeps _ _ ObjOk ?_ cur j hj h
  intro i g j hg hj
  match i with
  | 0 => exact { hg with application := dStr_utf8 hg.application hj }
  | 1 => exact { hg with period := dStr_utf8 hg.period hj }
  | 2 =>
    refine { hg with type := ⟨(ofStr_toStr_ofStr _).2, ?_⟩ }
    show Utf8 (GType.ofStr _).toStr
    rw [(ofStr_toStr_ofStr _).1]
    exact dStr_utf8 hg.type.2 hj
  | 3 => exact { hg with signer := dStr_utf8 hg.signer hj }
  | 4 => exact { hg with signers := dList_utf8 hg.signers hj }
  | 5 =>
    refine { hg with sig := ?_ }
    cases j with
    | arr l => exact ⟨dAt_utf8 hg.sig.1 hj 0, dAt_utf8 hg.sig.2 hj 1⟩
    | _ => exact hg.sig
  | 6 => exact { hg with timestamp := dStr_utf8 hg.timestamp hj }
  | 7 => exact { hg with cryptoScheme := dStr_utf8 hg.cryptoScheme hj }
  | _ + 8 =>
    refine { hg with payload := ?_ }
    cases j with
    | arr l => exact ⟨dAt_utf8 hg.payload.1 hj 0, dAt_utf8 hg.payload.2.1 hj 1, dAt_utf8 hg.payload.2.2 hj 2⟩
    | _ => exact hg.payload

theorem objOk_zero : ObjOk .zero :=
  ⟨Utf8.nil, Utf8.nil, ⟨by decide +kernel, Utf8.nil⟩, Utf8.nil, (fun _ h => by cases h), ⟨Utf8.nil, Utf8.nil⟩, Utf8.nil, Utf8.nil,
    ⟨Utf8.nil, Utf8.nil, Utf8.nil⟩⟩

theorem decode_gossip_ok (body : Str) : ObjOk (decode .zero dGossip body).1 := by
  unfold decode
  split
  · exact objOk_zero
  · rename_i j hj
    exact dGossip_utf8 _ j (strs_parseFirst hj) objOk_zero

theorem unmarshal_gossip_ok (body : Str) : ObjOk (unmarshal .zero dGossip body).1 := by
  unfold unmarshal
  split
  · exact objOk_zero
  · rename_i j hj
    exact dGossip_utf8 _ j (strs_parse hj) objOk_zero

/-- A notification encoding/json keeps. -/
structure NotifOk (n : Notification) : Prop where
  sender : Utf8 n.sender
  period : Utf8 n.period
  type : GType.ofStr n.type.toStr = n.type ∧ Utf8 n.type.toStr
  entity : Utf8 n.entity

theorem cleanNotif_eq {n : Notification} (h : NotifOk n) : cleanNotif n = n := by
  have h1 := h.sender
  have h2 := h.period
  have h3 := h.type
  have h4 := h.entity
  unfold Utf8 at *
  unfold cleanNotif
  rw [h1, h2, h3.2, h3.1, h4]

theorem dNotif_utf8 (cur : Notification) (j : Json) (hj : Strs j) (h : NotifOk cur) : NotifOk (dNotif cur j).1 := by
  refine dStruct_keeps _ _ NotifOk ?_ cur j hj h
  intro i g j hg hj
  match i with
  | 0 => exact { hg with sender := dStr_utf8 hg.sender hj }
  | 1 => exact { hg with period := dStr_utf8 hg.period hj }
  | 2 =>
    refine { hg with type := ⟨(ofStr_toStr_ofStr _).2, ?_⟩ }
    show Utf8 (GType.ofStr _).toStr
    rw [(ofStr_toStr_ofStr _).1]
    exact dStr_utf8 hg.type.2 hj
  | 3 => exact { hg with entity := dStr_utf8 hg.entity hj }
  | _ + 4 => exact { hg with }

theorem notifOk_zero : NotifOk notifZero := ⟨Utf8.nil, Utf8.nil, ⟨by decide +kernel, Utf8.nil⟩, Utf8.nil⟩

theorem decode_notif_ok (body : Str) : NotifOk (decode notifZero dNotif body).1 := by
  unfold decode
  split
  · exact notifOk_zero
  · rename_i j hj
    exact dNotif_utf8 _ j (strs_parseFirst hj) notifOk_zero

end Wire
end CTng
