import Verif.Model.X509
/- The root a tree head announces, read outside the client. -/
set_option autoImplicit false

namespace CTng

/-- definition/Verify.go:116-136 `ExtractRootHash`: payload from hexadecimal, JSON into an `STH`, its root from hexadecimal.
`none` is any of the three errors (their texts are not modelled). -/
def extractRootHash (X : XLib) (g : GossipObj) : Option Str :=
  match hexDecode g.payload.p1 with
  | none => none
  | some raw =>
    match X.decSTH raw with
    | none => none
    | some d => hexDecode d.rootHash

end CTng
