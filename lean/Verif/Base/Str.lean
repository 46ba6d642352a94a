/-
Go strings and byte slices.

A Go `string` is an immutable byte sequence; `[]byte(s)` and `string(b)` keep the bytes.
Both are modelled as `List UInt8`; `+` on strings is list append, `==` is equality, `s[a:b]` is `drop`/`take`.
-/
set_option autoImplicit false

namespace CTng

/-- A Go `string` or `[]byte` value. (Nil and empty byte slices are identified.) -/
abbrev Str := List UInt8

/-- `go!"..."` is the byte list of a string literal. -/
macro "go!" s:str : term => do
  let bs := s.getString.toUTF8.toList
  let elems := bs.toArray.map fun b => Lean.Syntax.mkNumLit (toString b.toNat)
  `(([$elems,*] : Str))

/-- Lexicographic byte order `<=`: Go's comparison of strings (`<` on strings, used by `CTngIDs.Less`,
crypto/types.go:46-48). -/
def Str.le : Str → Str → Bool
  | [], _ => true
  | _ :: _, [] => false
  | a :: as, b :: bs => if a < b then true else if b < a then false else Str.le as bs

/-- Decimal digits of a natural number, most significant first: `strconv.Itoa` on non-negative numbers. -/
def itoa (n : Nat) : Str :=
  if n < 10 then [UInt8.ofNat (48 + n)]
  else itoa (n / 10) ++ [UInt8.ofNat (48 + n % 10)]
termination_by n
decreasing_by omega

end CTng
