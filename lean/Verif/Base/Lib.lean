import Verif.Base.GoMap
/-
The external libraries the Go code calls, as a structure of arbitrary functions. Nothing is assumed about them here:
theorems either hold for every `Lib` or state the library contract they need as a hypothesis (`Lib.Laws` below and
hypotheses in the theorem statements).
-/
set_option autoImplicit false

namespace CTng

/-- Outcome of a library check that may also panic (for example RSA verification with an absent key: the Go map
yields a zero `rsa.PublicKey` whose modulus is a nil pointer). -/
inductive LibRes where
  | ok
  | fail
  | panic
  deriving DecidableEq, Repr

structure Lib where
  RsaPub : Type
  RsaPriv : Type
  BlsPub : Type
  BlsSec : Type
  BlsSig : Type
  /-- crypto/sha256, used by crypto/hash.go:53-56 (`GenerateSHA256`) -/
  sha256 : Str → Str
  /-- crypto/md5, used by crypto/hash.go:47-50 (`GenerateMD5`) -/
  md5 : Str → Str
  /-- rsa.SignPKCS1v15 on a SHA-256 digest (crypto/rsa.go:32); `none` is a signing error -/
  rsaSign : RsaPriv → Str → Option Str
  /-- rsa.VerifyPKCS1v15 on a SHA-256 digest (crypto/rsa.go:43). `none` is the zero key of a missing map entry. -/
  rsaVerify : Option RsaPub → Str → Str → LibRes
  /-- json.Unmarshal into a `map[string]string` (crypto/types.go:109,205) -/
  jsonStrMap : Str → Option (GoMap Str Str)
  /-- json.Unmarshal into `struct{Sign string; IDs []string}` (crypto/types.go:241) -/
  jsonThreshold : Str → Option (Str × List Str)
  /-- json.Marshal of a `[]string` (crypto/types.go:227); it cannot fail on strings -/
  jsonStrList : List Str → Str
  /-- `bls.PublicKey{}`: value of a missing entry of the BLS key map -/
  blsZeroPub : BlsPub
  /-- `new(bls.Sign)` -/
  blsZeroSig : BlsSig
  /-- SecretKey.Sign -/
  blsSign : BlsSec → Str → BlsSig
  /-- Sign.Verify -/
  blsVerify : BlsSig → BlsPub → Str → LibRes
  /-- Sign.Aggregate -/
  blsAggregate : List BlsSig → BlsSig
  /-- Sign.FastAggregateVerify; `none` is a nil `*bls.Sign` receiver -/
  blsFastAggVerify : Option BlsSig → List BlsPub → Str → LibRes
  /-- Sign.SerializeToHexStr -/
  blsSerHex : BlsSig → Str
  /-- Sign.DeserializeHexStr -/
  blsDeHex : Str → Option BlsSig

end CTng
