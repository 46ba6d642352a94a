import Verif.Base.Str
/- Prefix codecs: used to build concrete encoders that satisfy the contracts of the JSON and DER encoders. -/
set_option autoImplicit false

namespace CTng

/-- An encoder with a decoder that reads one value from the front of a string and returns the rest. -/
structure Codec (α : Type) where
  enc : α → Str
  dec : Str → Option (α × Str)
  law : ∀ a r, dec (enc a ++ r) = some (a, r)

namespace Codec

/-- Base 128 digits, least significant first; all but the last have the high bit set. -/
def natEnc : Nat → Nat → Str
  | 0, n => [UInt8.ofNat (n % 128)]
  | f + 1, n => if n < 128 then [UInt8.ofNat n] else UInt8.ofNat (n % 128 + 128) :: natEnc f (n / 128)

def natDec : Str → Option (Nat × Str)
  | [] => none
  | c :: t =>
    if c.toNat < 128 then some (c.toNat, t)
    else match natDec t with
      | none => none
      | some (n, r) => some (c.toNat - 128 + 128 * n, r)

theorem natDec_enc (f n : Nat) (r : Str) (h : n ≤ f) : natDec (natEnc f n ++ r) = some (n, r) := by
  induction f generalizing n with
  | zero =>
    obtain rfl : n = 0 := by omega
    rfl
  | succ f ih =>
    unfold natEnc
    by_cases hn : n < 128
    · rw [if_pos hn]
      have : (UInt8.ofNat n).toNat = n := by simp; omega
      simp [natDec, this, hn]
    · rw [if_neg hn]
      have h1 : (UInt8.ofNat (n % 128 + 128)).toNat = n % 128 + 128 := by
        rw [UInt8.toNat_ofNat']; omega
      have h2 : ¬ (n % 128 + 128 < 128) := by omega
      simp only [List.cons_append, natDec, h1, h2, if_false]
      rw [ih (n / 128) (by omega)]
      simp only [Option.some.injEq, Prod.mk.injEq, and_true]
      omega

def nat : Codec Nat where
  enc n := natEnc n n
  dec := natDec
  law := fun a r => natDec_enc a a r (Nat.le_refl a)

def str : Codec Str where
  enc s := nat.enc s.length ++ s
  dec s := match nat.dec s with
    | none => none
    | some (n, t) => if n ≤ t.length then some (t.take n, t.drop n) else none
  law := by
    intro a r
    rw [List.append_assoc, nat.law]
    simp

def pair {α β : Type} (a : Codec α) (b : Codec β) : Codec (α × β) where
  enc p := a.enc p.1 ++ b.enc p.2
  dec s := match a.dec s with
    | none => none
    | some (x, t) => match b.dec t with
      | none => none
      | some (y, u) => some ((x, y), u)
  law := by
    intro p r
    rw [List.append_assoc, a.law]
    simp only
    rw [b.law]

def encAll {α : Type} (a : Codec α) : List α → Str
  | [] => []
  | x :: t => a.enc x ++ encAll a t

def decAll {α : Type} (a : Codec α) : Nat → Str → Option (List α × Str)
  | 0, s => some ([], s)
  | n + 1, s => match a.dec s with
    | none => none
    | some (x, t) => match decAll a n t with
      | none => none
      | some (l, u) => some (x :: l, u)

theorem decAll_enc {α : Type} (a : Codec α) (l : List α) (r : Str) : decAll a l.length (encAll a l ++ r) = some (l, r) := by
  induction l with
  | nil => rfl
  | cons x t ih =>
    simp only [List.length_cons, encAll, decAll, List.append_assoc, a.law, ih]

def list {α : Type} (a : Codec α) : Codec (List α) where
  enc l := nat.enc l.length ++ encAll a l
  dec s := match nat.dec s with
    | none => none
    | some (n, t) => decAll a n t
  law := by
    intro l r
    rw [List.append_assoc, nat.law]
    exact decAll_enc a l r

def option {α : Type} (a : Codec α) : Codec (Option α) where
  enc o := match o with
    | none => [0]
    | some x => 1 :: a.enc x
  dec s := match s with
    | [] => none
    | c :: t => if c = 0 then some (none, t) else match a.dec t with
      | none => none
      | some (x, u) => some (some x, u)
  law := by
    intro o r
    cases o with
    | none => rfl
    | some x => simp [a.law]

def bool : Codec Bool where
  enc b := if b then [1] else [0]
  dec s := match s with
    | [] => none
    | c :: t => some (c = 1, t)
  law := by intro b r; cases b <;> simp

/-- Transport along a map with a left inverse. -/
def iso {α β : Type} (a : Codec α) (f : β → α) (g : α → β) (h : ∀ b, g (f b) = b) : Codec β where
  enc b := a.enc (f b)
  dec s := match a.dec s with
    | none => none
    | some (x, t) => some (g x, t)
  law := by intro b r; rw [a.law]; simp [h]

/-- Decode a whole string. -/
def decode {α : Type} (a : Codec α) (s : Str) : Option α := (a.dec s).map (·.1)

theorem decode_enc {α : Type} (a : Codec α) (x : α) : a.decode (a.enc x) = some x := by
  have := a.law x []
  rw [List.append_nil] at this
  rw [decode, this]; rfl

theorem enc_inj {α : Type} (a : Codec α) {x y : α} (h : a.enc x = a.enc y) : x = y := by
  have := a.decode_enc x
  rw [h, a.decode_enc] at this
  exact (Option.some.inj this).symm

end Codec
end CTng
