import Verif.Props.Wire
/- C137: which request bodies a gossiper takes, and which object it takes them for. -/
set_option autoImplicit false

namespace CTng
namespace Wire
open Json

/-! ### The specification -/

/-- `k` is a spelling of the lower-case name `n`: letters may be capital, and the long s (U+017F) and the Kelvin sign (U+212A) count
as s and k. -/
inductive Spells : Str → Str → Prop
  | nil : Spells [] []
  | same (c : UInt8) {k n : Str} : Spells k n → Spells (c :: k) (c :: n)
  | capital (c : UInt8) {k n : Str} : 65 ≤ c → c ≤ 90 → Spells k n → Spells (c :: k) ((c + 32) :: n)
  | longS {k n : Str} : Spells k n → Spells (0xC5 :: 0xBF :: k) (115 :: n)
  | kelvin {k n : Str} : Spells k n → Spells (0xE2 :: 0x84 :: 0xAA :: k) (107 :: n)

/-- A value for a string. -/
def FitsStr : Json → Prop
  | .null => True
  | .str _ => True
  | _ => False

/-- A value for a list of strings. -/
def FitsStrs : Json → Prop
  | .null => True
  | .arr l => ∀ v ∈ l, FitsStr v
  | _ => False

/-- A value for an array of `n` strings: what comes after them does not matter. -/
def FitsFirst (n : Nat) : Json → Prop
  | .null => True
  | .arr l => ∀ (i : Nat) v, i < n → l[i]? = some v → FitsStr v
  | _ => False

/-- A digit of base 64. -/
def B64Digit (c : UInt8) : Prop := (65 ≤ c ∧ c ≤ 90) ∨ (97 ≤ c ∧ c ≤ 122) ∨ (48 ≤ c ∧ c ≤ 57) ∨ c = 43 ∨ c = 47

/-- Base 64: groups of four digits, the last padded by one or two `=`; line breaks anywhere. -/
def B64Text (s : Str) : Prop :=
  ∃ body pad, s.filter (fun c => c ≠ 10 ∧ c ≠ 13) = body ++ List.replicate pad 61 ∧ pad ≤ 2 ∧ (∀ c ∈ body, B64Digit c) ∧
    (body.length + pad) % 4 = 0

/-- A decimal number. -/
def Decimal (t : Str) (n : Nat) : Prop :=
  t ≠ [] ∧ (∀ c ∈ t, 48 ≤ c ∧ c ≤ 57) ∧ n = t.foldl (fun a c => a * 10 + (c.toNat - 48)) 0

/-- A value for bytes: base 64, or an array of numbers below 256. -/
def FitsBytes : Json → Prop
  | .null => True
  | .str s => B64Text s
  | .arr l => ∀ v ∈ l, v = .null ∨ ∃ t n, v = .num t ∧ Decimal t n ∧ n < 256
  | _ => False

/-- A value for a struct: members that spell the name of a field have a value for it. -/
def FitsStruct (fields : List (Str × (Json → Prop))) : Json → Prop
  | .null => True
  | .obj l => ∀ m ∈ l, ∀ f ∈ fields, Spells m.1 f.1 → f.2 m.2
  | _ => False

/-- definition/Types.go:3-14 -/
def FitsGossip : Json → Prop := FitsStruct
  [(go!"application", FitsStr), (go!"period", FitsStr), (go!"type", FitsStr), (go!"signer", FitsStr), (go!"signers", FitsStrs),
    (go!"signature", FitsFirst 2), (go!"timestamp", FitsStr), (go!"crypto_scheme", FitsStr), (go!"payload", FitsFirst 3)]

/-- gossiper/types.go:108-114 -/
def FitsNotif : Json → Prop := FitsStruct
  [(go!"sender", FitsStr), (go!"period", FitsStr), (go!"type", FitsStr), (go!"entity_url", FitsStr), (go!"objhash", FitsBytes)]

/-- The last member of `l` that spells `n` and is a string is `s`; without one, `s` is empty. -/
def LastText (n : Str) (l : List (Str × Json)) (s : Str) : Prop :=
  (∃ a k b, l = a ++ (k, .str s) :: b ∧ Spells k n ∧ ∀ m ∈ b, Spells m.1 n → ∀ x, m.2 ≠ .str x) ∨
    (s = [] ∧ ∀ m ∈ l, Spells m.1 n → ∀ x, m.2 ≠ .str x)

/-! ### Names -/

/-- A name of lower-case letters and the like. -/
def Lower (n : Str) : Prop := ∀ c ∈ n, c < 128 ∧ ¬ (65 ≤ c ∧ c ≤ 90)

theorem foldKey_plain (c : UInt8) (t : Str) (h : c ≠ 0xC5 ∧ c ≠ 0xE2) :
    foldKey (c :: t) = (if 65 ≤ c ∧ c ≤ 90 then c + 32 else c) :: foldKey t := by
  rw [foldKey]
  · rintro t' rfl; exact absurd rfl h.1
  · rintro t' rfl; exact absurd rfl h.2

theorem foldKey_of_spells {k n : Str} (h : Spells k n) (hn : Lower n) : foldKey k = n := by
  induction h with
  | nil => rfl
  | @same c k n _ ih =>
    have hc := hn c (by simp)
    rw [foldKey_plain c k ⟨by rintro rfl; exact absurd hc.1 (by decide), by rintro rfl; exact absurd hc.1 (by decide)⟩,
      if_neg hc.2, ih fun x hx => hn x (by simp [hx])]
  | @capital c k n h1 h2 _ ih =>
    rw [foldKey_plain c k ⟨by rintro rfl; exact absurd h2 (by decide), by rintro rfl; exact absurd h2 (by decide)⟩,
      if_pos ⟨h1, h2⟩, ih fun x hx => hn x (by simp [hx])]
  | longS _ ih => rw [foldKey, ih fun x hx => hn x (by simp [hx])]
  | kelvin _ ih => rw [foldKey, ih fun x hx => hn x (by simp [hx])]

theorem spells_foldKey (k : Str) : Spells k (foldKey k) := by
  induction k using foldKey.induct with
  | case1 => exact .nil
  | case2 t ih => rw [foldKey]; exact .longS ih
  | case3 t ih => rw [foldKey]; exact .kelvin ih
  | case4 c t h1 h2 ih =>
    rw [foldKey]
    rotate_left
    · exact h1
    · exact h2
    split
    · rename_i h; exact .capital c h.1 h.2 ih
    · exact .same c ih

theorem spells_iff {k n : Str} (hn : Lower n) : Spells k n ↔ foldKey k = n :=
  ⟨fun h => foldKey_of_spells h hn, fun h => h ▸ spells_foldKey k⟩

theorem foldKey_lower {n : Str} (hn : Lower n) : foldKey n = n := by
  refine foldKey_of_spells ?_ hn
  clear hn
  induction n with
  | nil => exact .nil
  | cons c t ih => exact .same c ih

theorem findIdx?_congr {α : Type} {p q : α → Bool} (l : List α) (h : ∀ x ∈ l, p x = q x) : l.findIdx? p = l.findIdx? q := by
  induction l with
  | nil => rfl
  | cons a t ih =>
    rw [List.findIdx?_cons, List.findIdx?_cons, h a (by simp), ih fun x hx => h x (by simp [hx])]

theorem fieldIndex_fold {names : List Str} (hl : ∀ n ∈ names, Lower n) (k : Str) :
    fieldIndex names k = names.findIdx? (· = foldKey k) := by
  unfold fieldIndex
  cases h : names.findIdx? (· = k) with
  | some i =>
    simp only
    have hm : k ∈ names := by
      obtain ⟨hi, hp, _⟩ := List.findIdx?_eq_some_iff_getElem.1 h
      simp only [decide_eq_true_eq] at hp
      exact hp ▸ List.getElem_mem hi
    rw [foldKey_lower (hl k hm), h]
  | none =>
    simp only
    exact findIdx?_congr _ fun x hx => by rw [foldKey_lower (hl x hx)]

theorem findIdx?_nodup {names : List Str} (hd : names.Nodup) (x : Str) (i : Nat) :
    names.findIdx? (· = x) = some i ↔ names[i]? = some x := by
  rw [List.findIdx?_eq_some_iff_getElem]
  constructor
  · rintro ⟨hi, hp, _⟩
    simp only [decide_eq_true_eq] at hp
    rw [List.getElem?_eq_getElem hi, hp]
  · intro h
    obtain ⟨hi, hp⟩ := List.getElem?_eq_some_iff.1 h
    refine ⟨hi, by simp [hp], fun j hj => ?_⟩
    simp only [decide_eq_true_eq]
    intro hj'
    have := (List.getElem_inj hd).1 (hj'.trans hp.symm)
    omega

/-- The field of a member is the one whose name it spells. -/
theorem fieldIndex_iff {names : List Str} (hl : ∀ n ∈ names, Lower n) (hd : names.Nodup) (k : Str) (i : Nat) :
    fieldIndex names k = some i ↔ ∃ n, names[i]? = some n ∧ Spells k n := by
  rw [fieldIndex_fold hl, findIdx?_nodup hd]
  constructor
  · intro h; exact ⟨_, h, spells_foldKey k⟩
  · rintro ⟨n, h, hs⟩
    rw [h, (spells_iff (hl n (List.mem_of_getElem? h))).1 hs]

/-! ### Values -/

theorem dStr_ok (cur : Str) (j : Json) : (dStr cur j).2 = true ↔ FitsStr j := by
  cases j <;> simp [dStr, FitsStr]

theorem dElems_ok {α : Type} (z : α) (d : Dec α) (P : Json → Prop) (h : ∀ c j, (d c j).2 = true ↔ P j) (l : List Json) :
    ∀ cur, (dElems z d cur l).2 = true ↔ ∀ v ∈ l, P v := by
  induction l with
  | nil => intro cur; simp [dElems]
  | cons a t ih => intro cur; simp [dElems, h, ih]

theorem dStrs_ok (cur : List Str) (j : Json) : (dList [] dStr cur j).2 = true ↔ FitsStrs j := by
  cases j <;> simp [dList, FitsStrs, dElems_ok [] dStr FitsStr dStr_ok]

theorem dAt_ok (cur : Str) (l : List Json) (i : Nat) : (dAt cur l i).2 = true ↔ ∀ v, l[i]? = some v → FitsStr v := by
  unfold dAt
  split
  · rename_i j hj; rw [dStr_ok]; simp [hj]
  · rename_i hj; simp [hj]

theorem dSig2_ok (cur : Sig2) (j : Json) : (dSig2 cur j).2 = true ↔ FitsFirst 2 j := by
  cases j with
  | arr l =>
    simp only [dSig2, FitsFirst, Bool.and_eq_true, dAt_ok]
    constructor
    · rintro ⟨h0, h1⟩ i v hi hv
      match i, hi with
      | 0, _ => exact h0 v hv
      | 1, _ => exact h1 v hv
    · intro h; exact ⟨fun v => h 0 v (by omega), fun v => h 1 v (by omega)⟩
  | _ => simp [dSig2, FitsFirst]

theorem dPay3_ok (cur : Pay3) (j : Json) : (dPay3 cur j).2 = true ↔ FitsFirst 3 j := by
  cases j with
  | arr l =>
    simp only [dPay3, FitsFirst, Bool.and_eq_true, dAt_ok]
    constructor
    · rintro ⟨⟨h0, h1⟩, h2⟩ i v hi hv
      match i, hi with
      | 0, _ => exact h0 v hv
      | 1, _ => exact h1 v hv
      | 2, _ => exact h2 v hv
    · intro h; exact ⟨⟨fun v => h 0 v (by omega), fun v => h 1 v (by omega)⟩, fun v => h 2 v (by omega)⟩
  | _ => simp [dPay3, FitsFirst]

theorem b64val_some (c : UInt8) : (b64val c).isSome = true ↔ B64Digit c := by
  unfold b64val B64Digit
  repeat' split
  all_goals simp_all

theorem b64val_none {c : UInt8} : b64val c = none ↔ ¬ B64Digit c := by
  rw [← b64val_some]; cases b64val c <;> simp

theorem pad_not_digit : ¬ B64Digit 61 := by unfold B64Digit; decide

/-- Base 64 without line breaks. -/
def B64Plain (s : Str) : Prop := ∃ body pad, s = body ++ List.replicate pad 61 ∧ pad ≤ 2 ∧ (∀ c ∈ body, B64Digit c) ∧
    (body.length + pad) % 4 = 0

theorem B64Plain.cons {a b c d : UInt8} {t : Str} (ha : B64Digit a) (hb : B64Digit b) (hc : B64Digit c) (hd : B64Digit d)
    (ht : B64Plain t) : B64Plain (a :: b :: c :: d :: t) := by
  obtain ⟨body, pad, rfl, h1, h2, h3⟩ := ht
  refine ⟨a :: b :: c :: d :: body, pad, rfl, h1, ?_, by simp only [List.length_cons]; omega⟩
  intro x hx
  simp only [List.mem_cons] at hx
  rcases hx with rfl | rfl | rfl | rfl | hx
  · exact ha
  · exact hb
  · exact hc
  · exact hd
  · exact h2 x hx

/-- What the first four characters of base 64 text are. -/
theorem B64Plain.inv {a b c d : UInt8} {t : Str} (h : B64Plain (a :: b :: c :: d :: t)) :
    B64Digit a ∧ B64Digit b ∧ ((B64Digit c ∧ B64Digit d ∧ B64Plain t) ∨ (t = [] ∧ d = 61 ∧ (c = 61 ∨ B64Digit c))) := by
  obtain ⟨body, pad, he, h1, h2, h3⟩ := h
  match body, he, h2, h3 with
  | [], he, _, h3 =>
    have := congrArg List.length he
    simp at this; omega
  | [x], he, _, h3 =>
    have := congrArg List.length he
    simp at this; omega
  | [x, y], he, h2, h3 =>
    have hp : pad = 2 := by simp at h3; omega
    subst hp
    simp only [List.cons_append, List.nil_append, List.replicate, List.cons.injEq] at he
    obtain ⟨rfl, rfl, rfl, rfl, rfl⟩ := he
    exact ⟨h2 a (by simp), h2 b (by simp), .inr ⟨rfl, rfl, .inl rfl⟩⟩
  | [x, y, z], he, h2, h3 =>
    have hp : pad = 1 := by simp at h3; omega
    subst hp
    simp only [List.cons_append, List.nil_append, List.replicate, List.cons.injEq] at he
    obtain ⟨rfl, rfl, rfl, rfl, rfl⟩ := he
    exact ⟨h2 a (by simp), h2 b (by simp), .inr ⟨rfl, rfl, .inr (h2 c (by simp))⟩⟩
  | x :: y :: z :: w :: r, he, h2, h3 =>
    simp only [List.cons_append, List.cons.injEq] at he
    obtain ⟨rfl, rfl, rfl, rfl, rfl⟩ := he
    exact ⟨h2 a (by simp), h2 b (by simp), .inl ⟨h2 c (by simp), h2 d (by simp), r, pad, rfl, h1, fun q hq => h2 q (by simp [hq]),
      by simp only [List.length_cons] at h3; omega⟩⟩

theorem b64last_some (w x : Nat) (c d : UInt8) : (b64last w x c d).isSome = true ↔ d = 61 ∧ (c = 61 ∨ B64Digit c) := by
  unfold b64last
  by_cases hc : c = 61
  · by_cases hd : d = 61 <;> simp [hc, hd]
  · rw [if_neg hc]
    cases hv : b64val c with
    | none => simp [hc, b64val_none.1 hv]
    | some y =>
      have : B64Digit c := (b64val_some c).1 (by rw [hv]; rfl)
      by_cases hd : d = 61 <;> simp [hc, hd, this]

theorem b64groups_some (s : Str) : (b64groups s).isSome = true ↔ B64Plain s := by
  generalize hn : s.length = n
  induction n using Nat.strongRecOn generalizing s with
  | ind n ih =>
    match s, hn with
    | [], _ => simp only [b64groups, Option.isSome_some, true_iff]; exact ⟨[], 0, rfl, by omega, by simp, rfl⟩
    | [a], _ =>
      simp only [b64groups, Option.isSome_none, Bool.false_eq_true, false_iff]
      rintro ⟨body, pad, he, _, _, h⟩
      have := congrArg List.length he; simp at this; omega
    | [a, b], _ =>
      simp only [b64groups, Option.isSome_none, Bool.false_eq_true, false_iff]
      rintro ⟨body, pad, he, _, _, h⟩
      have := congrArg List.length he; simp at this; omega
    | [a, b, c], _ =>
      simp only [b64groups, Option.isSome_none, Bool.false_eq_true, false_iff]
      rintro ⟨body, pad, he, _, _, h⟩
      have := congrArg List.length he; simp at this; omega
    | a :: b :: c :: d :: t, hn =>
      have iht := ih t.length (by simp only [List.length_cons] at hn; omega) t rfl
      rw [b64groups]
      cases ha : b64val a with
      | none =>
        simp only [Option.isSome_none, Bool.false_eq_true, false_iff]
        exact fun h => b64val_none.1 ha h.inv.1
      | some w =>
        cases hb : b64val b with
        | none =>
          simp only [Option.isSome_none, Bool.false_eq_true, false_iff]
          exact fun h => b64val_none.1 hb h.inv.2.1
        | some x =>
          have h1 := (b64val_some a).1 (by rw [ha]; rfl)
          have h2 := (b64val_some b).1 (by rw [hb]; rfl)
          have key : (¬ B64Digit c ∨ ¬ B64Digit d) →
              ((if t = [] then b64last w x c d else none).isSome = true ↔ B64Plain (a :: b :: c :: d :: t)) := by
            intro hno
            constructor
            · intro h
              split at h
              · rename_i ht
                subst ht
                obtain ⟨rfl, rfl | hc⟩ := (b64last_some w x c d).1 h
                · exact ⟨[a, b], 2, rfl, by omega, by simp [h1, h2], by simp⟩
                · exact ⟨[a, b, c], 1, rfl, by omega, by simp [h1, h2, hc], by simp⟩
              · cases h
            · intro h
              rcases h.inv.2.2 with ⟨hc, hd, _⟩ | ⟨rfl, hl⟩
              · rcases hno with hno | hno
                · exact absurd hc hno
                · exact absurd hd hno
              · rw [if_pos rfl]; exact (b64last_some w x c d).2 hl
          cases hc : b64val c with
          | none => simp only; exact key (.inl (b64val_none.1 hc))
          | some y =>
            cases hd : b64val d with
            | none => simp only; exact key (.inr (b64val_none.1 hd))
            | some z =>
              have h3 := (b64val_some c).1 (by rw [hc]; rfl)
              have h4 := (b64val_some d).1 (by rw [hd]; rfl)
              simp only [Option.isSome_map, iht]
              constructor
              · exact B64Plain.cons h1 h2 h3 h4
              · intro h
                rcases h.inv.2.2 with h | ⟨_, rfl, _⟩
                · exact h.2.2
                · exact absurd h4 pad_not_digit

theorem b64dec_some (s : Str) : (b64dec s).isSome = true ↔ B64Text s := b64groups_some _

theorem digitVal_some {c : UInt8} {d : Nat} : digitVal c = some d ↔ (48 ≤ c ∧ c ≤ 57) ∧ d = c.toNat - 48 := by
  unfold digitVal
  split
  · rename_i h; simp [h, eq_comm]
  · rename_i h; simp [h]

theorem atoiAux_some (t : Str) : ∀ (a n : Nat), atoiAux t a = some n ↔
    (∀ c ∈ t, 48 ≤ c ∧ c ≤ 57) ∧ n = t.foldl (fun a c => a * 10 + (c.toNat - 48)) a := by
  induction t with
  | nil => intro a n; simp [atoiAux, eq_comm]
  | cons c t ih =>
    intro a n
    rw [atoiAux]
    cases h : digitVal c with
    | none =>
      simp only [List.mem_cons, reduceCtorEq, false_iff]
      rintro ⟨hc, _⟩
      have := digitVal_some.2 ⟨hc c (.inl rfl), rfl⟩
      rw [h] at this; cases this
    | some d =>
      obtain ⟨h1, rfl⟩ := digitVal_some.1 h
      simp only [ih, List.mem_cons, forall_eq_or_imp, List.foldl_cons, h1, true_and]

theorem atoi_some (t : Str) (n : Nat) : atoi t = some n ↔ Decimal t n := by
  unfold atoi Decimal
  split
  · rename_i h; simp [h]
  · rename_i h; rw [atoiAux_some]; simp [h]

theorem dByte_ok (c : Nat) (j : Json) : (dNat 256 c j).2 = true ↔ j = .null ∨ ∃ t n, j = .num t ∧ Decimal t n ∧ n < 256 := by
  cases j with
  | num tok =>
    simp only [dNat, reduceCtorEq, false_or, Json.num.injEq]
    cases h : atoi tok with
    | none =>
      simp only [Bool.false_eq_true, false_iff]
      rintro ⟨t, n, rfl, hd, _⟩
      rw [(atoi_some _ _).2 hd] at h; cases h
    | some n =>
      have hd := (atoi_some _ _).1 h
      by_cases hn : n < 256
      · simp only [hn, if_true, true_iff]; exact ⟨tok, n, rfl, hd, hn⟩
      · simp only [hn, if_false, Bool.false_eq_true, false_iff]
        rintro ⟨t, n', rfl, hd', hn'⟩
        have := (atoi_some _ _).2 hd'
        rw [h] at this; cases this; exact hn hn'
  | _ => simp [dNat]

theorem dBytes_ok (cur : Str) (j : Json) : (dBytes cur j).2 = true ↔ FitsBytes j := by
  cases j with
  | str s =>
    simp only [dBytes, FitsBytes, ← b64dec_some]
    cases b64dec s <;> simp
  | arr l => simp only [dBytes, FitsBytes]; exact dElems_ok 0 (dNat 256) _ dByte_ok l _
  | _ => simp [dBytes, FitsBytes]

/-! ### Structs -/

theorem dStruct_ok {α : Type} (fields : List (Str × (Json → Prop))) (names : List Str) (set : Nat → Dec α)
    (hnames : names = fields.map (·.1)) (hl : ∀ n ∈ names, Lower n) (hd : names.Nodup)
    (h : ∀ i c j f, fields[i]? = some f → ((set i c j).2 = true ↔ f.2 j)) (cur : α) (j : Json) :
    (dStruct names set cur j).2 = true ↔ FitsStruct fields j := by
  cases j with
  | obj l =>
    simp only [dStruct, FitsStruct]
    have key : (l.foldl (dMember names set) (cur, true)).2 = true ↔ ∀ m ∈ l, ∀ i f, fieldIndex names m.1 = some i →
        fields[i]? = some f → f.2 m.2 := by
      have e : ∀ (l : List (Str × Json)) (acc : α × Bool), (l.foldl (dMember names set) acc).2 = true ↔
          acc.2 = true ∧ ∀ m ∈ l, ∀ i f, fieldIndex names m.1 = some i → fields[i]? = some f → f.2 m.2 := by
        intro l
        induction l with
        | nil => intro acc; simp
        | cons m t ih =>
          intro acc
          rw [List.foldl_cons, ih]
          have : (dMember names set acc m).2 = true ↔ acc.2 = true ∧ ∀ i f, fieldIndex names m.1 = some i → fields[i]? = some f → f.2 m.2 := by
            unfold dMember
            split
            · rename_i hf; simp [hf]
            · rename_i i hf
              obtain ⟨n, hn, _⟩ := (fieldIndex_iff hl hd _ _).1 hf
              rw [hnames, List.getElem?_map, Option.map_eq_some_iff] at hn
              obtain ⟨f, hf', _⟩ := hn
              simp only [hf, Bool.and_eq_true, h i _ _ f hf']
              constructor
              · rintro ⟨h1, h2⟩
                refine ⟨h1, ?_⟩
                intro i' f' hi hf''
                cases hi
                rw [hf'] at hf''; cases hf''; exact h2
              · rintro ⟨h1, h2⟩
                exact ⟨h1, h2 i f rfl hf'⟩
          rw [this]
          simp only [List.mem_cons, forall_eq_or_imp, and_assoc]
      rw [e]; simp
    rw [key]
    constructor
    · intro hk m hm f hf hs
      obtain ⟨i, hi⟩ := List.mem_iff_getElem?.1 hf
      refine hk m hm i f ((fieldIndex_iff hl hd _ _).2 ⟨f.1, ?_, hs⟩) hi
      rw [hnames, List.getElem?_map, hi]; rfl
    · intro hk m hm i f hfi hf
      obtain ⟨n, hn, hs⟩ := (fieldIndex_iff hl hd _ _).1 hfi
      rw [hnames, List.getElem?_map, hf] at hn
      cases hn
      exact hk m hm f (List.mem_of_getElem? hf) hs
  | _ => simp [dStruct, FitsStruct]

instance (n : Str) : Decidable (Lower n) := by unfold Lower; infer_instance

theorem gossipNames_lower : ∀ n ∈ gossipNames, Lower n := by decide +kernel

theorem notifNames_lower : ∀ n ∈ notifNames, Lower n := by decide +kernel

theorem dGossip_fits (cur : GossipObj) (j : Json) : (dGossip cur j).2 = true ↔ FitsGossip j := by
  unfold dGossip FitsGossip
  refine dStruct_ok _ gossipNames _ rfl gossipNames_lower (by decide +kernel) ?_ cur j
  intro i c j f hf
  match i, hf with
  | 0, hf => cases hf; exact dStr_ok _ _
  | 1, hf => cases hf; exact dStr_ok _ _
  | 2, hf => cases hf; exact dStr_ok _ _
  | 3, hf => cases hf; exact dStr_ok _ _
  | 4, hf => cases hf; exact dStrs_ok _ _
  | 5, hf => cases hf; exact dSig2_ok _ _
  | 6, hf => cases hf; exact dStr_ok _ _
  | 7, hf => cases hf; exact dStr_ok _ _
  | 8, hf => cases hf; exact dPay3_ok _ _
  | n + 9, hf => cases hf

theorem dNotif_fits (cur : Notification) (j : Json) : (dNotif cur j).2 = true ↔ FitsNotif j := by
  unfold dNotif FitsNotif
  refine dStruct_ok _ notifNames _ rfl notifNames_lower (by decide +kernel) ?_ cur j
  intro i c j f hf
  match i, hf with
  | 0, hf => cases hf; exact dStr_ok _ _
  | 1, hf => cases hf; exact dStr_ok _ _
  | 2, hf => cases hf; exact dStr_ok _ _
  | 3, hf => cases hf; exact dStr_ok _ _
  | 4, hf => cases hf; exact dBytes_ok _ _
  | n + 5, hf => cases hf

/-! ### Bodies -/

theorem parseFirst_front {t : Str} {j : Json} (hn : ∀ x, j ≠ .num x) (h : Front t j) : parseFirst t = some j := by
  obtain ⟨a, v, r, rfl, ha, ht⟩ := h
  simp only [parseFirst, List.append_assoc]
  rw [value_ws ha, read_complete ht r _ (fun x => absurd x.choose_spec (hn _)) (by simp only [List.length_append]; omega)]
  rfl

theorem decode_ok {α : Type} (z : α) (d : Dec α) (P : Json → Prop) (h : ∀ j, (d z j).2 = true ↔ P j) (hn : ∀ x, ¬ P (.num x))
    (t : Str) : (decode z d t).2 = true ↔ ∃ j, Front t j ∧ P j := by
  unfold decode
  constructor
  · intro hd
    cases hp : parseFirst t with
    | none => rw [hp] at hd; cases hd
    | some j =>
      rw [hp] at hd
      exact ⟨j, parseFirst_sound hp, (h j).1 hd⟩
  · rintro ⟨j, hf, hj⟩
    rw [parseFirst_front (fun x e => hn x (e ▸ hj)) hf]
    exact (h j).2 hj

/-- What is left in a string field after the members of an object. -/
theorem dMembers_text {α : Type} (names : List Str) (set : Nat → Dec α) (hl : ∀ n ∈ names, Lower n) (hd : names.Nodup)
    (get : α → Str) (i0 : Nat) (n : Str) (hn : names[i0]? = some n)
    (h0 : ∀ c j, get (set i0 c j).1 = (dStr (get c) j).1) (h1 : ∀ i c j, i ≠ i0 → get (set i c j).1 = get c) (z : α)
    (hz : get z = []) (l : List (Str × Json)) : LastText n l (get (l.foldl (dMember names set) (z, true)).1) := by
  generalize hm : l.length = m
  induction m generalizing l with
  | zero =>
    have : l = [] := by simpa using hm
    subst this
    exact .inr ⟨hz, by simp⟩
  | succ m ih =>
    rcases List.eq_nil_or_concat l with rfl | ⟨t, x, rfl⟩
    · simp at hm
    · rw [List.concat_eq_append] at *
      have iht := ih t (by simpa using hm)
      rw [List.foldl_append]
      generalize t.foldl (dMember names set) (z, true) = acc at iht
      simp only [List.foldl_cons, List.foldl_nil]
      -- a member that changes nothing
      have keep : (Spells x.1 n → ∀ y, x.2 ≠ .str y) → LastText n (t ++ [x]) (get acc.1) := by
        intro hx
        rcases iht with ⟨a, k, b, rfl, hs, hb⟩ | ⟨e, hb⟩
        · refine .inl ⟨a, k, b ++ [x], by simp, hs, ?_⟩
          intro y hy
          rcases List.mem_append.1 hy with hy | hy
          · exact hb y hy
          · rw [List.mem_singleton.1 hy]; exact hx
        · refine .inr ⟨e, ?_⟩
          intro y hy
          rcases List.mem_append.1 hy with hy | hy
          · exact hb y hy
          · rw [List.mem_singleton.1 hy]; exact hx
      have hnot : ∀ i, fieldIndex names x.1 = some i → i ≠ i0 → ¬ Spells x.1 n := by
        intro i hi hne hs
        have := (fieldIndex_iff hl hd x.1 i0).2 ⟨n, hn, hs⟩
        rw [hi] at this; exact hne (Option.some.inj this)
      unfold dMember
      cases hf : fieldIndex names x.1 with
      | none =>
        refine keep fun hs => ?_
        have := (fieldIndex_iff hl hd x.1 i0).2 ⟨n, hn, hs⟩
        rw [hf] at this; cases this
      | some i =>
        simp only
        by_cases hi : i = i0
        · subst hi
          rw [h0]
          cases hx : x.2 with
          | str y =>
            refine .inl ⟨t, x.1, [], ?_, ?_, by simp⟩
            · simp only [dStr]; rw [← hx]
            · obtain ⟨n', hn', hs⟩ := (fieldIndex_iff hl hd _ _).1 hf
              rw [hn] at hn'; cases hn'; exact hs
          | _ => exact keep fun _ y e => by rw [hx] at e; cases e
        · rw [h1 _ _ _ hi]
          exact keep fun hs => absurd hs (hnot i hf hi)

end Wire
open Wire Json

/-- C137, for objects: a gossiper takes a body posted to one of the addresses of objects if and only if it begins with a JSON text
that fits the type; it takes it for the object of that text. -/
theorem C137_objects (route : Str) (hr : route ∈ objRoutes) (len : Int) (body : Str) :
    ((requestEvent route len body).isSome = true ↔ ∃ j, Front body j ∧ FitsGossip j) ∧
    ∀ j, Front body j → FitsGossip j → requestEvent route len body = some (.recv len (dGossip .zero j).1) := by
  have hn : ∀ x, ¬ FitsGossip (.num x) := fun x h => h
  have key := decode_ok .zero dGossip FitsGossip (dGossip_fits .zero) hn body
  unfold requestEvent
  rw [if_pos hr]
  constructor
  · rw [← key]
    split <;> simp_all
  · intro j hf hj
    rw [if_pos (key.2 ⟨j, hf, hj⟩)]
    unfold decode
    rw [parseFirst_front (fun x e => hn x (e ▸ hj)) hf]

/-- C137, for notifications and requests for payloads. -/
theorem C137_notifications (route : Str) (hr : route = go!"/gossip/new_payload_request" ∨ route = go!"/gossip/new_payload_notification")
    (len : Int) (body : Str) : (requestEvent route len body).isSome = true ↔ ∃ j, Front body j ∧ FitsNotif j := by
  have hn : ∀ x, ¬ FitsNotif (.num x) := fun x h => h
  rw [← decode_ok notifZero dNotif FitsNotif (dNotif_fits notifZero) hn body]
  unfold requestEvent
  rcases hr with rfl | rfl
  · rw [if_neg (by decide +kernel), if_pos rfl]
    split <;> simp_all
  · rw [if_neg (by decide +kernel), if_neg (by decide +kernel), if_pos rfl]
    split <;> simp_all

/-- C137, the object: each of its strings is that of the last member, in whatever spelling, that is a string. -/
theorem C137_fields (l : List (Str × Json)) :
    LastText (go!"application") l (dGossip .zero (.obj l)).1.application ∧ LastText (go!"period") l (dGossip .zero (.obj l)).1.period ∧
    LastText (go!"type") l (dGossip .zero (.obj l)).1.type.toStr ∧ LastText (go!"signer") l (dGossip .zero (.obj l)).1.signer ∧
    LastText (go!"timestamp") l (dGossip .zero (.obj l)).1.timestamp ∧
    LastText (go!"crypto_scheme") l (dGossip .zero (.obj l)).1.cryptoScheme := by
  have hd : gossipNames.Nodup := by decide +kernel
  refine ⟨?_, ?_, ?_, ?_, ?_, ?_⟩
  · refine dMembers_text gossipNames _ gossipNames_lower hd (fun g : GossipObj => g.application) 0 _ rfl (fun _ _ => rfl) ?_ _ rfl l
    intro i c j hi; split <;> first | rfl | exact absurd rfl hi
  · refine dMembers_text gossipNames _ gossipNames_lower hd (fun g : GossipObj => g.period) 1 _ rfl (fun _ _ => rfl) ?_ _ rfl l
    intro i c j hi; split <;> first | rfl | exact absurd rfl hi
  · refine dMembers_text gossipNames _ gossipNames_lower hd (fun g : GossipObj => g.type.toStr) 2 _ rfl ?_ ?_ _ rfl l
    · intro c j; exact (ofStr_toStr_ofStr _).1
    · intro i c j hi; split <;> first | rfl | exact absurd rfl hi
  · refine dMembers_text gossipNames _ gossipNames_lower hd (fun g : GossipObj => g.signer) 3 _ rfl (fun _ _ => rfl) ?_ _ rfl l
    intro i c j hi; split <;> first | rfl | exact absurd rfl hi
  · refine dMembers_text gossipNames _ gossipNames_lower hd (fun g : GossipObj => g.timestamp) 6 _ rfl (fun _ _ => rfl) ?_ _ rfl l
    intro i c j hi; split <;> first | rfl | exact absurd rfl hi
  · refine dMembers_text gossipNames _ gossipNames_lower hd (fun g : GossipObj => g.cryptoScheme) 7 _ rfl (fun _ _ => rfl) ?_ _ rfl l
    intro i c j hi; split <;> first | rfl | exact absurd rfl hi

/-! ### Concrete cases -/

namespace Ref

/-- A body with a capital name, a name twice, an unknown member and one more element than the signature has. -/
def oddBody : Str := go!" {\"Signer\":\"x\",\"signer\":\"L1\",\"signature\":[\"a\",\"b\",3],\"extra\":[]} rest"

def oddMembers : List (Str × Json) :=
  [(go!"Signer", .str (go!"x")), (go!"signer", .str (go!"L1")), (go!"signature", .arr [.str (go!"a"), .str (go!"b"), .num (go!"3")]),
    (go!"extra", .arr [])]

theorem oddBody_parse : parseFirst oddBody = some (.obj oddMembers) := by
  rfl

/-- C137: the body is taken, for an object with signer "L1". -/
example : (requestEvent (go!"/gossip/sth_init") 70 oddBody).isSome = true ∧ (dGossip .zero (.obj oddMembers)).1.signer = go!"L1" :=
  ⟨(C137_objects _ (by decide) _ _).1.2 ⟨_, parseFirst_sound oddBody_parse, (dGossip_fits .zero _).1 (by rfl)⟩, by rfl⟩

/-- C137: a hash that is not base 64 is refused. -/
example : (requestEvent (go!"/gossip/new_payload_notification") 20 (go!"{\"objhash\":\"YQ=\"}")).isSome = false ∧
    (requestEvent (go!"/gossip/new_payload_notification") 20 (go!"{\"objhash\":\"YQ==\"}")).isSome = true := ⟨by rfl, by rfl⟩

end Ref

end CTng
