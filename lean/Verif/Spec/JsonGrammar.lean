import Verif.Model.Json
/-
Which texts are JSON and what they stand for: the grammar of RFC 8259, with UTF-8 from RFC 3629 and what the documentation of Go's
encoding/json adds to it (bytes that are not UTF-8 and halves of surrogate pairs stand for U+FFFD). Nothing here refers to the reader
of `Model/Json.lean`; only the type of values is shared.
-/
set_option autoImplicit false

namespace CTng.Json

/-! ### Characters -/

/-- RFC 3629: `u` is the UTF-8 encoding of code point `n`. -/
inductive Rune : Nat → Str → Prop
  | one (n : Nat) (a : UInt8) : n < 0x80 → a.toNat = n → Rune n [a]
  | two (n : Nat) (a b : UInt8) : 0x80 ≤ n → n < 0x800 → a.toNat = 0xC0 + n / 64 → b.toNat = 0x80 + n % 64 → Rune n [a, b]
  | three (n : Nat) (a b c : UInt8) : 0x800 ≤ n → n < 0x10000 → ¬ (0xD800 ≤ n ∧ n < 0xE000) → a.toNat = 0xE0 + n / 4096 →
      b.toNat = 0x80 + n / 64 % 64 → c.toNat = 0x80 + n % 64 → Rune n [a, b, c]
  | four (n : Nat) (a b c d : UInt8) : 0x10000 ≤ n → n < 0x110000 → a.toNat = 0xF0 + n / 262144 →
      b.toNat = 0x80 + n / 4096 % 64 → c.toNat = 0x80 + n / 64 % 64 → d.toNat = 0x80 + n % 64 → Rune n [a, b, c, d]

/-- A hexadecimal digit. -/
def HexDig (c : UInt8) (n : Nat) : Prop :=
  (48 ≤ c.toNat ∧ c.toNat ≤ 57 ∧ n = c.toNat - 48) ∨ (97 ≤ c.toNat ∧ c.toNat ≤ 102 ∧ n = c.toNat - 87) ∨
  (65 ≤ c.toNat ∧ c.toNat ≤ 70 ∧ n = c.toNat - 55)

/-- Four hexadecimal digits. -/
def Hex4 (h : Str) (n : Nat) : Prop :=
  ∃ a b c d w x y z, h = [a, b, c, d] ∧ HexDig a w ∧ HexDig b x ∧ HexDig c y ∧ HexDig d z ∧ n = w * 4096 + x * 256 + y * 16 + z

/-- Escapes of one letter, and the byte each stands for. -/
def shortEscapes : List (UInt8 × UInt8) := [(34, 34), (92, 92), (47, 47), (98, 8), (102, 12), (110, 10), (114, 13), (116, 9)]

/-- The text between the quotes, and the string it stands for. -/
inductive Chars : Str → Str → Prop
  | nil : Chars [] []
  /-- any character except control characters, the quote and the backslash -/
  | rune (n : Nat) (u t s : Str) : Rune n u → 32 ≤ n → n ≠ 34 → n ≠ 92 → Chars t s → Chars (u ++ t) (u ++ s)
  /-- a byte at which no character starts -/
  | bad (c : UInt8) (t s : Str) : 128 ≤ c.toNat → (∀ n u, Rune n u → ¬ u <+: c :: t) → Chars t s → Chars (c :: t) ([239, 191, 189] ++ s)
  | short (c b : UInt8) (t s : Str) : (c, b) ∈ shortEscapes → Chars t s → Chars (92 :: c :: t) (b :: s)
  /-- a code point -/
  | uni (h : Str) (n : Nat) (u t s : Str) : Hex4 h n → Rune n u → Chars t s → Chars (92 :: 117 :: (h ++ t)) (u ++ s)
  /-- a surrogate pair -/
  | pair (h l : Str) (a b : Nat) (u t s : Str) : Hex4 h a → Hex4 l b → 0xD800 ≤ a → a < 0xDC00 → 0xDC00 ≤ b → b < 0xE000 →
      Rune (0x10000 + (a - 0xD800) * 1024 + (b - 0xDC00)) u → Chars t s →
      Chars (92 :: 117 :: (h ++ (92 :: 117 :: (l ++ t)))) (u ++ s)
  /-- half a surrogate pair -/
  | lone (h : Str) (n : Nat) (t s : Str) : Hex4 h n → 0xD800 ≤ n → n < 0xE000 →
      (n < 0xDC00 → ∀ l b, Hex4 l b → 0xDC00 ≤ b → b < 0xE000 → ¬ (92 :: 117 :: l) <+: t) → Chars t s →
      Chars (92 :: 117 :: (h ++ t)) ([239, 191, 189] ++ s)

/-! ### Numbers -/

def Digits (t : Str) : Prop := ∀ d ∈ t, 48 ≤ d.toNat ∧ d.toNat ≤ 57

/-- No leading zeros. -/
def IntText (t : Str) : Prop := t = [48] ∨ ∃ c ds, t = c :: ds ∧ 49 ≤ c.toNat ∧ c.toNat ≤ 57 ∧ Digits ds

def FracText (t : Str) : Prop := t = [] ∨ ∃ ds, t = 46 :: ds ∧ ds ≠ [] ∧ Digits ds

def ExpText (t : Str) : Prop :=
  t = [] ∨ ∃ e sign ds, t = e :: (sign ++ ds) ∧ (e = 101 ∨ e = 69) ∧ (sign = [] ∨ sign = [43] ∨ sign = [45]) ∧ ds ≠ [] ∧ Digits ds

def NumText (t : Str) : Prop :=
  ∃ sign i f e, t = sign ++ i ++ f ++ e ∧ (sign = [] ∨ sign = [45]) ∧ IntText i ∧ FracText f ∧ ExpText e

/-! ### Values -/

/-- White space. -/
def Ws (w : Str) : Prop := ∀ c ∈ w, c = 32 ∨ c = 9 ∨ c = 10 ∨ c = 13

/-- The parts with a comma between each two. -/
def commas : List Str → Str
  | [] => []
  | [a] => a
  | a :: b :: t => a ++ 44 :: commas (b :: t)

/-- An element of an array: its text and value, and the white space around it. -/
structure Elem where
  pre : Str
  text : Str
  val : Json
  post : Str

def Elem.src (e : Elem) : Str := e.pre ++ e.text ++ e.post

/-- A member of an object: its name in quotes and as a string, its value, and the white space between them. -/
structure Member where
  pre : Str
  quoted : Str
  name : Str
  mid : Str
  value : Elem

def Member.src (m : Member) : Str := m.pre ++ 34 :: (m.quoted ++ 34 :: (m.mid ++ 58 :: m.value.src))

/-- A JSON text without white space around it, and its value. -/
inductive Text : Str → Json → Prop
  | null : Text (go!"null") .null
  | true : Text (go!"true") (.bool true)
  | false : Text (go!"false") (.bool false)
  | num (t : Str) : NumText t → Text t (.num t)
  | str (t s : Str) : Chars t s → Text (34 :: (t ++ [34])) (.str s)
  | arr0 (w : Str) : Ws w → Text (91 :: (w ++ [93])) (.arr [])
  | arr (l : List Elem) : l ≠ [] → (∀ e ∈ l, Ws e.pre ∧ Ws e.post) → (∀ e ∈ l, Text e.text e.val) →
      Text (91 :: (commas (l.map Elem.src) ++ [93])) (.arr (l.map Elem.val))
  | obj0 (w : Str) : Ws w → Text (123 :: (w ++ [125])) (.obj [])
  | obj (l : List Member) : l ≠ [] → (∀ m ∈ l, Ws m.pre ∧ Ws m.mid ∧ Ws m.value.pre ∧ Ws m.value.post ∧ Chars m.quoted m.name) →
      (∀ m ∈ l, Text m.value.text m.value.val) →
      Text (123 :: (commas (l.map Member.src) ++ [125])) (.obj (l.map fun m => (m.name, m.value.val)))

/-- A JSON document. -/
def Doc (t : Str) (j : Json) : Prop := ∃ a v b, t = a ++ v ++ b ∧ Ws a ∧ Ws b ∧ Text v j

/-- A stream that begins with a JSON text. -/
def Front (t : Str) (j : Json) : Prop := ∃ a v r, t = a ++ v ++ r ∧ Ws a ∧ Text v j

end CTng.Json
