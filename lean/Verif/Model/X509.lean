import Verif.Model.Merkle
import Verif.Model.Verify
/-
Certificates, the CTng extension, bit sets, the remaining external encoders (`XLib`), and crypto/certpool.go.
-/
set_option autoImplicit false

namespace CTng

/-! ### Data shared by CA, logger, monitor and client -/

/-- crypto/MerkleTree.go:27-32 `POI_for_transmission`; `poi = none` is a nil proof pointer -/
structure POI where
  poi : Option MProof
  subjectKeyId : Str
  issuer : Str
  loggerID : Str
  deriving DecidableEq, Repr

/-- CA/types.go:71-74 `LoggerInfo` -/
structure LoggerInfo where
  sth : GossipObj
  poi : POI
  deriving DecidableEq, Repr

/-- CA/types.go:76-83 `SequenceNumber` and `CTngExtension`; `rid` is the sequence number -/
structure CTngExt where
  rid : Nat
  loggers : List LoggerInfo
  deriving DecidableEq, Repr

/-- `CTngExtension{}` -/
def CTngExt.zero : CTngExt := ⟨0, []⟩

/-- A `bitset.BitSet` (github.com/bits-and-blooms/bitset): its length and its bits as a natural number. -/
structure BitSet where
  len : Nat
  bits : Nat
  deriving DecidableEq, Repr

namespace BitSet

/-- `bitset.New(n)` -/
def new (n : Nat) : BitSet := ⟨n, 0⟩

/-- `b.Set(i)`: grows the set to length `i+1` when needed -/
def set (b : BitSet) (i : Nat) : BitSet := ⟨if i < b.len then b.len else i + 1, b.bits ||| 2 ^ i⟩

/-- `b.Test(i)`: false beyond the length -/
def test (b : BitSet) (i : Nat) : Bool := decide (i < b.len) && b.bits.testBit i

/-- `b.SymmetricDifference(c)`: a clone of the longer operand, xor-ed with the other -/
def symDiff (b c : BitSet) : BitSet := ⟨max b.len c.len, b.bits ^^^ c.bits⟩

/-- `b.Union(c)`: a new set; neither operand changes -/
def union (b c : BitSet) : BitSet := ⟨max b.len c.len, b.bits ||| c.bits⟩

/-- No bit at or beyond the length: the representation invariant kept by the library. -/
def WF (b : BitSet) : Prop := b.bits < 2 ^ b.len

end BitSet

/-- definition/Types.go:36-42 `STH` -/
structure STHData where
  signer : Str
  timestamp : Str
  period : Str
  rootHash : Str
  treeSize : Nat
  deriving DecidableEq, Repr

/-- CA/CRV.go:38-42 and definition/Types.go:30-34 `Revocation` -/
structure Revocation where
  period : Str
  deltaCRV : Str
  srh : Str
  deriving DecidableEq, Repr

/-- x509.Certificate: the fields the project reads. `raw` is empty for a certificate that was not parsed from DER.
Extensions are (dotted OID, value) pairs. -/
structure Cert where
  raw : Str
  rawTBS : Str
  signature : Str
  rawSubject : Str
  subjectCN : Str
  rawIssuer : Str
  issuerCN : Str
  subjectKeyId : Str
  authorityKeyId : Str
  serial : Nat
  isCA : Bool
  publicKey : Str
  extensions : List (Str × Str)
  extraExtensions : List (Str × Str)
  deriving DecidableEq, Repr

/-- External encoders beyond `Lib`: arbitrary functions. Decoders whose errors the code ignores return the value they
leave in the target. -/
structure XLib where
  /-- json.Marshal of `STH` (Logger/buildmerkle.go:35) -/
  encSTH : STHData → Str
  /-- json.Unmarshal into `STH` (client/client.go:164, 235; definition/Verify.go:124); `none` is an error -/
  decSTH : Str → Option STHData
  /-- json.Marshal of `Revocation` (CA/CRV.go:132) -/
  encRev : Revocation → Str
  /-- json.Unmarshal into `Revocation`, error ignored (client/parser.go:16-19, monitor/types.go:364-367) -/
  decRev : Str → Revocation
  /-- BitSet.MarshalBinary -/
  marshal : BitSet → Str
  /-- BitSet.UnmarshalBinary; `none` is an error -/
  unmarshal : Str → Option BitSet
  /-- util.CompressData (util/helpers.go:154-163); errors are ignored by its caller -/
  compress : Str → Str
  /-- util.DecompressData (util/helpers.go:165-175); the error is ignored and the bytes are nil -/
  decompress : Str → Str
  /-- CA/types.go:93-109 `EncodeCTngExtension` -/
  encExt : CTngExt → Str
  /-- CA/types.go:111-125 `DecodeCTngExtension` -/
  decExt : Str → CTngExt
  /-- x509.ParseCertificate; `none` is an error -/
  parseCert : Str → Option Cert
  /-- x509.CreateCertificate followed by x509.ParseCertificate (CA/ca.go:83-92): template, parent, public key -/
  createCert : Cert → Cert → Str → Cert

/-- CA/types.go:85-87 `OIDCTngExtension` -/
def oidCTng : Str := go!"1.3.6.1.4.1.67847871"

/-- util/IO.go:176-192 `ParseTBSCertificate` -/
def Cert.parseTBS (c : Cert) : Cert :=
  { c with raw := [], rawTBS := [], signature := [], rawIssuer := [], authorityKeyId := [], extensions := [],
           extraExtensions := [] }

variable (X : XLib)

/-- CA/types.go:162-170 `ParseCTngextension`: the last extension with the OID wins -/
def Cert.parseExt (c : Cert) : CTngExt :=
  c.extensions.foldl (fun acc e => if e.1 = oidCTng then X.decExt e.2 else acc) CTngExt.zero

/-- CA/types.go:172-176 `GetRIDfromCert` -/
def Cert.rid (c : Cert) : Nat := (c.parseExt X).rid

/-- CA/types.go:127-142 `UpdateCTngExtension`. (The certificate is changed in place; the returned pointer is the
argument.) -/
def Cert.updateExt (c : Cert) (n : LoggerInfo) : Cert :=
  let ext := c.parseExt X
  if ext.loggers.any (fun l => l.sth.signer = n.sth.signer) then c
  else
    let ext' : CTngExt := { ext with loggers := ext.loggers ++ [n] }
    { c with extensions := c.extensions.map fun e => if e.1 = oidCTng then (e.1, X.encExt ext') else e }

/-- CA/types.go:178-195 `GetPrecertfromCert` -/
def Cert.toPrecert (c : Cert) : Cert :=
  { c.parseTBS with extensions := [(oidCTng, X.encExt ⟨(c.parseExt X).rid, []⟩)] }

/-- x509.Certificate.Equal: comparison of the `Raw` bytes (nil and empty compare equal) -/
def Cert.equal (a b : Cert) : Bool := a.raw = b.raw

/-- The bytes a certificate contributes to the tree: crypto/MerkleTree.go:14-20 `Certblock.Serialize` -/
def Cert.block (c : Cert) : Str := c.rawSubject

/-- crypto/MerkleTree.go:69-72 `VerifyPOI` -/
def verifyPOI (h : Str → Str) (root : Str) (poi : Option MProof) (c : Cert) : Bool := merkleVerify h c.block poi root

/-! ### crypto/certpool.go -/

/-- crypto/certpool.go:16-20 -/
structure CertPool where
  bySubjectKeyId : GoMap Str (List Nat)
  byName : GoMap Str (List Nat)
  certs : List Cert

namespace CertPool

/-- crypto/certpool.go:23-28 `NewCertPool` -/
def new : CertPool := ⟨.empty, .empty, []⟩

/-- `m[k]` on a map of slices -/
def idx (m : GoMap Str (List Nat)) (k : Str) : List Nat := (m.get k).getD []

/-- Result of an operation that indexes a slice: an out-of-range index panics. -/
inductive Res (α : Type) where
  | ok (a : α)
  | panic
  deriving DecidableEq, Repr

/-- The loop of `contains` over candidate indices. -/
def containsLoop (certs : List Cert) (c : Cert) : List Nat → Res Bool
  | [] => .ok false
  | i :: t =>
    match certs[i]? with
    | none => .panic
    | some d => if d.equal c then .ok true else containsLoop certs c t

/-- crypto/certpool.go:67-80 `contains` -/
def contains (s : CertPool) (c : Cert) : Res Bool := containsLoop s.certs c (idx s.byName c.rawSubject)

/-- crypto/certpool.go:83-103 `AddCert` on a non-nil certificate -/
def addCert (s : CertPool) (c : Cert) : Res CertPool :=
  match s.contains c with
  | .panic => .panic
  | .ok true => .ok s
  | .ok false =>
    let n := s.certs.length
    .ok { certs := s.certs ++ [c]
          bySubjectKeyId :=
            if c.subjectKeyId.length > 0 then
              s.bySubjectKeyId.set c.subjectKeyId (idx s.bySubjectKeyId c.subjectKeyId ++ [n])
            else s.bySubjectKeyId
          byName := s.byName.set c.rawSubject (idx s.byName c.rawSubject ++ [n]) }

/-- crypto/certpool.go:145-156 `GetCertBySubjectKeyID`; `.ok none` is nil -/
def getBySKI (s : CertPool) (k : Str) : Res (Option Cert) :=
  match idx s.bySubjectKeyId k with
  | [] => .ok none
  | i :: _ =>
    match s.certs[i]? with
    | none => .panic
    | some c => .ok (some c)

/-- crypto/certpool.go:175-186 `UpdateCertBySubjectKeyID`: replaces the certificate without changing the indices -/
def updateBySKI (s : CertPool) (k : Str) (c : Cert) : Res CertPool :=
  match idx s.bySubjectKeyId k with
  | [] => .ok s
  | i :: _ => if i < s.certs.length then .ok { s with certs := s.certs.set i c } else .panic

/-- crypto/certpool.go:52-65 `findPotentialParents` -/
def findPotentialParents (s : CertPool) (c : Cert) : List Nat :=
  let cand := if c.authorityKeyId.length > 0 then idx s.bySubjectKeyId c.authorityKeyId else []
  if cand.length = 0 then idx s.byName c.rawIssuer else cand

/-- A PEM block (`encoding/pem.Block`). -/
structure PemBlock where
  type : Str
  headers : List (Str × Str)
  bytes : Str
  deriving DecidableEq, Repr

/-- crypto/certpool.go:111-132 `AppendCertsFromPEM`. `dec` is `pem.Decode` (the block and the rest, `none` if there is no
block), `parse` is `x509.ParseCertificate`. `fuel` bounds the number of rounds: pem.Decode returns a shorter rest, so that
the length of the input is enough (`Props/CertPool.lean`). -/
def appendPEM (dec : Str → Option (PemBlock × Str)) (parse : Str → Option Cert) : Nat → CertPool → Str → Res (CertPool × Bool)
  | 0, s, _ => .ok (s, false)
  | n + 1, s, text =>
    if text.length = 0 then .ok (s, false)
    else
      match dec text with
      | none => .ok (s, false)
      | some (b, rest) =>
        if b.type ≠ go!"CERTIFICATE" ∨ b.headers.length ≠ 0 then appendPEM dec parse n s rest
        else
          match parse b.bytes with
          | none => appendPEM dec parse n s rest
          | some c =>
            match s.addCert c with
            | .panic => .panic
            | .ok s' =>
              match appendPEM dec parse n s' rest with
              | .panic => .panic
              | .ok (s'', _) => .ok (s'', true)

/-- crypto/certpool.go:30-48 `copy`: new maps and slices with the same contents (pointers to the certificates are
shared) -/
def copy (s : CertPool) : CertPool := s

/-- crypto/certpool.go:136-142 `Subjects` -/
def subjects (s : CertPool) : List Str := s.certs.map (·.rawSubject)

/-- crypto/certpool.go:158-172 `GetLength`, `GetCertList`, `GetCerts` -/
def getCerts (s : CertPool) : List Cert := s.certs

end CertPool

end CTng
