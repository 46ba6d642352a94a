import Verif.Model.Crypto
/- Hash algorithms: crypto/hash.go, crypto/types.go:56-93. -/
set_option autoImplicit false

namespace CTng

/-- The hash functions of the Go library (crypto/hash.go:6-10). -/
structure Hashes where
  md5 : Str → Str
  sha1 : Str → Str
  sha224 : Str → Str
  sha256 : Str → Str
  sha384 : Str → Str
  sha512 : Str → Str

/-- crypto/hash.go:20-44 `generateHash`; `none` is the error. (Writing to a hasher never fails.) -/
def generateHash (H : Hashes) (algo : Nat) (data : Str) : Option Str :=
  if algo = 1 then some (H.md5 data)
  else if algo = 2 then some (H.sha1 data)
  else if algo = 3 then some (H.sha224 data)
  else if algo = 4 then some (H.sha256 data)
  else if algo = 5 then some (H.sha384 data)
  else if algo = 6 then some (H.sha512 data)
  else none

/-- crypto/types.go:74-93 `HashAlgorithm.String` -/
def hashName (algo : Nat) : Str :=
  if algo = 0 then go!"None"
  else if algo = 1 then go!"MD5"
  else if algo = 2 then go!"SHA1"
  else if algo = 3 then go!"SHA224"
  else if algo = 4 then go!"SHA256"
  else if algo = 5 then go!"SHA384"
  else if algo = 6 then go!"SHA512"
  else go!"UNKNOWN(" ++ itoa algo ++ go!")"

end CTng
