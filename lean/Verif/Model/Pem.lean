import Verif.Model.Wire
/-
PEM files on disk (util/IO.go:139-253) and encoding/pem, which is not part of /repo. `Encode` and `Decode` follow the Go 1.19
library. Simplifications: blocks are written without headers (no caller in /repo sets any); `bytes.TrimSpace` of header names and
values removes ASCII space only; files are read in one call and opening, writing and closing do not fail.
-/
set_option autoImplicit false

namespace CTng
namespace Pem
open CertPool (PemBlock)

/-! ### encoding/pem -/

/-- `bytes.Cut`: what is before and after the first occurrence of `pat` -/
def cut (pat : Str) : Str → Option (Str × Str)
  | [] => if pat = [] then some ([], []) else none
  | c :: t =>
    if pat.isPrefixOf (c :: t) then some ([], (c :: t).drop pat.length)
    else (cut pat t).map fun p => (c :: p.1, p.2)

/-- Without trailing bytes that satisfy `p`. -/
def trimRight (p : UInt8 → Bool) (s : Str) : Str := (s.reverse.dropWhile p).reverse

/-- pem.go `getLine`: the first line without its end and trailing spaces and tabs, and what follows -/
def getLine (s : Str) : Str × Str :=
  match cut [10] s with
  | none => (trimRight (fun c => c = 32 ∨ c = 9) s, [])
  | some (l, rest) =>
    (trimRight (fun c => c = 32 ∨ c = 9) (if l.getLast? = some 13 then l.dropLast else l), rest)

def isSpace (c : UInt8) : Bool := c = 32 ∨ (9 ≤ c ∧ c ≤ 13)

/-- `bytes.TrimSpace` -/
def trimSpace (s : Str) : Str := trimRight isSpace (s.dropWhile isSpace)

def dashes : Str := go!"-----"
/-- "-----BEGIN " -/
def begin : Str := go!"-----BEGIN "
/-- "-----END " -/
def fin : Str := go!"-----END "

/-- pem.go: the lines `key: value` after the type line. `none`: the text ends. -/
def headers : Nat → Str → List (Str × Str) → Option (List (Str × Str) × Str)
  | 0, _, _ => none
  | n + 1, s, hs =>
    if s = [] then none
    else
      match cut [58] (getLine s).1 with
      | none => some (hs, s)
      | some (k, v) => headers n (getLine s).2 ((hs.filter fun e => e.1 ≠ trimSpace k) ++ [(trimSpace k, trimSpace v)])

/-- pem.go `Decode`: where the END line begins: the body and what follows "-----END ". -/
def findEnd (hs : List (Str × Str)) (s : Str) : Option (Str × Str) :=
  if hs = [] ∧ fin.isPrefixOf s = true then some ([], s.drop fin.length) else cut (10 :: fin) s

/-- pem.go `Decode`: body and trailer of a block of type `ty`. `none`: try the next BEGIN line. -/
def body (ty : Str) (hs : List (Str × Str)) (s : Str) : Option (PemBlock × Str) :=
  match findEnd hs s with
  | none => none
  | some (text, trailer) =>
    if trailer.length < ty.length + dashes.length then none
    else
      let t := trailer.take (ty.length + dashes.length)
      if ty.isPrefixOf t = false ∨ dashes.isSuffixOf t = false then none
      else if (getLine (trailer.drop (ty.length + dashes.length))).1.length ≠ 0 then none
      else
        match Wire.b64dec (text.filter fun c => c ≠ 32 ∧ c ≠ 9) with
        | none => none
        | some b => some (⟨ty, hs, b⟩, (getLine (32 :: trailer)).2)

/-- pem.go `Decode`, the loop over BEGIN lines -/
def decodeN : Nat → Str → Option (PemBlock × Str)
  | 0, _ => none
  | n + 1, s =>
    match (if begin.isPrefixOf s = true then some ([], s.drop begin.length) else cut (10 :: begin) s) with
    | none => none
    | some (_, s1) =>
      let l := getLine s1
      if dashes.isSuffixOf l.1 = false then decodeN n l.2
      else
        let ty := l.1.take (l.1.length - dashes.length)
        match headers (l.2.length + 1) l.2 [] with
        | none => none
        | some (hs, s2) =>
          match body ty hs s2 with
          | none => decodeN n s2
          | some r => some r

/-- pem.go `Decode`: the first block and what follows it. Each round of the loop consumes a BEGIN line, so the length of the text
bounds the number of rounds. -/
def decode (s : Str) : Option (PemBlock × Str) := decodeN (s.length + 1) s

/-- pem.go `lineBreaker`: lines of 64 bytes -/
def lines (n : Nat) (s : Str) : Str :=
  match n with
  | 0 => []
  | n + 1 => if s = [] then [] else s.take 64 ++ 10 :: lines n (s.drop 64)

/-- pem.go `Encode` of a block without headers -/
def encode (ty b : Str) : Str :=
  begin ++ ty ++ dashes ++ [10] ++ lines (Wire.b64enc b).length (Wire.b64enc b) ++ fin ++ ty ++ dashes ++ [10]

/-! ### util/IO.go -/

/-- Files by path. -/
abbrev Files := GoMap Str Str

/-- util/IO.go:139-153 `SaveCertificateToDisk` -/
def saveCertificate (fs : Files) (cert path : Str) : Files := fs.set path (encode (go!"CERTIFICATE") cert)

/-- util/IO.go:194-218 `ReadCertificateFromDisk`; `none` is an error -/
def readCertificate (fs : Files) (path : Str) : Option Str :=
  match fs.get path with
  | none => none
  | some content =>
    match decode content with
    | none => none
    | some (b, _) => some b.bytes

/-- What `x509.ParsePKCS8PrivateKey` returns. -/
inductive AnyKey (K : Type) where
  | rsa (k : K)
  | other

/-- PKCS #8 encoding of RSA private keys (crypto/x509). -/
structure Pkcs8 (K : Type) where
  marshal : K → Str
  parse : Str → Option (AnyKey K)

/-- x509.ParsePKCS8PrivateKey reads what x509.MarshalPKCS8PrivateKey wrote. -/
structure Pkcs8.Laws {K : Type} (P : Pkcs8 K) : Prop where
  rt : ∀ k, P.parse (P.marshal k) = some (.rsa k)

/-- util/IO.go:155-175 `SaveKeyToDisk` (for a key that is not nil, which MarshalPKCS8PrivateKey encodes) -/
def saveKey {K : Type} (P : Pkcs8 K) (fs : Files) (k : K) (path : Str) : Files :=
  fs.set path (encode (go!"PRIVATE KEY") (P.marshal k))

/-- util/IO.go:220-253 `ReadKeyFromDisk`; `none` is an error -/
def readKey {K : Type} (P : Pkcs8 K) (fs : Files) (path : Str) : Option K :=
  match fs.get path with
  | none => none
  | some content =>
    match decode content with
    | none => none
    | some (b, _) =>
      match P.parse b.bytes with
      | some (.rsa k) => some k
      | _ => none

end Pem
end CTng
