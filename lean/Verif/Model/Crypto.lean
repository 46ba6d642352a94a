import Verif.Model.Definition
/- Model of crypto/types.go, crypto/crypto_config.go, crypto/bls.go, crypto/rsa.go, crypto/hash.go. -/
set_option autoImplicit false

namespace CTng

/-! ### hex (encoding/hex as used in crypto/types.go:102,113-114) -/

/-- One hex digit, lower case. -/
def hexDigit (n : UInt8) : UInt8 := if n < 10 then 48 + n else 87 + n

/-- hex.EncodeToString -/
def hexEncode : Str → Str
  | [] => []
  | b :: t => hexDigit (b / 16) :: hexDigit (b % 16) :: hexEncode t

/-- Value of a hex digit character, upper or lower case. -/
def fromHexDigit (c : UInt8) : Option UInt8 :=
  if 48 ≤ c ∧ c ≤ 57 then some (c - 48)
  else if 97 ≤ c ∧ c ≤ 102 then some (c - 87)
  else if 65 ≤ c ∧ c ≤ 70 then some (c - 55)
  else none

/-- hex.Decode / hex.DecodeString: odd length or a non-hex character is an error. -/
def hexDecode : Str → Option Str
  | [] => some []
  | [_] => none
  | a :: b :: t =>
    match fromHexDigit a, fromHexDigit b, hexDecode t with
    | some x, some y, some r => some ((x * 16 + y) :: r)
    | _, _, _ => none

/-! ### signatures and their strings -/

/-- crypto/types.go:95-98 -/
structure RSASig where
  sig : Str
  id : Str
  deriving DecidableEq, Repr

/-- crypto/types.go:101-103 `RSASig.String` (Sprintf inserts the id without escaping) -/
def RSASig.toStr (s : RSASig) : Str :=
  go!"{\"sig\":\"" ++ hexEncode s.sig ++ go!"\",\"id\":\"" ++ s.id ++ go!"\"}"

variable (L : Lib)

/-- crypto/types.go:106-120 `RSASigFromString`. `none` is a non-nil error. A missing key reads as "". -/
def RSASig.fromStr (str : Str) : Option RSASig :=
  match L.jsonStrMap str with
  | none => none
  | some m =>
    match hexDecode ((m.get (go!"sig")).getD []) with
    | none => none
    | some b => some { sig := b, id := (m.get (go!"id")).getD [] }

/-- crypto/types.go:188-191 -/
structure SigFragment where
  /-- `none` is a nil `*bls.Sign` -/
  sign : Option L.BlsSig
  id : Str

/-- crypto/types.go:196-198 `SigFragment.String`; `none` is the panic of serializing through a nil pointer. -/
def SigFragment.toStr (s : SigFragment L) : Option Str :=
  s.sign.map fun σ => go!"{\"sign\":\"" ++ L.blsSerHex σ ++ go!"\",\"id\":\"" ++ s.id ++ go!"\"}"

/-- crypto/types.go:201-215 `SigFragmentFromString`: the value returned, and whether the error is nil. On errors the
value still holds a non-nil zero signature. (Simplified: a failed DeserializeHexStr leaves the zero signature.) -/
def SigFragment.fromStr (str : Str) : SigFragment L × Bool :=
  match L.jsonStrMap str with
  | none => ({ sign := some L.blsZeroSig, id := [] }, false)
  | some m =>
    match L.blsDeHex ((m.get (go!"sign")).getD []) with
    | none => ({ sign := some L.blsZeroSig, id := [] }, false)
    | some σ => ({ sign := some σ, id := (m.get (go!"id")).getD [] }, true)

/-- crypto/types.go:217-220 -/
structure ThresholdSig where
  ids : List Str
  sign : Option L.BlsSig

/-- crypto/types.go:222-232 `ThresholdSig.String`; `none` is the panic of serializing through a nil pointer. -/
def ThresholdSig.toStr (t : ThresholdSig L) : Option Str :=
  t.sign.map fun σ => go!"{\"sign\":\"" ++ L.blsSerHex σ ++ go!"\", \"ids\":" ++ L.jsonStrList t.ids ++ go!"}"

/-- crypto/types.go:234-253 `ThresholdSigFromString`: the value returned and whether the error is nil. On a JSON error
the signature pointer is nil; on a point-decoding error it is the zero signature. -/
def ThresholdSig.fromStr (str : Str) : ThresholdSig L × Bool :=
  match L.jsonThreshold str with
  | none => ({ ids := [], sign := none }, false)
  | some (s, ids) =>
    match L.blsDeHex s with
    | none => ({ ids := ids, sign := some L.blsZeroSig }, false)
    | some σ => ({ ids := ids, sign := some σ }, true)

/-- crypto/types.go:256-268 `CryptoConfig` -/
structure CryptoConfig where
  threshold : Int
  n : Int
  hashScheme : Nat
  signScheme : Str
  thresholdScheme : Str
  selfID : Str
  signPublicMap : GoMap Str L.RsaPub
  signSecretKey : L.RsaPriv
  thresholdPublicMap : GoMap Str L.BlsPub
  thresholdSecretKey : L.BlsSec

variable {L}

/-- Outcome of `Gossip_object.Verify` and the checks below: nil error, some error, or a panic. -/
inductive VErr where
  | noSigMatch | mislabel | invalidType | conMismatch | scheme | rsa | threshold
  deriving DecidableEq, Repr

inductive VRes where
  | ok
  | err (e : VErr)
  | panic
  deriving DecidableEq, Repr

/-- crypto/rsa.go:38-44 `RSAVerify` -/
def rsaVerifyMsg (msg : Str) (sig : RSASig) (pub : Option L.RsaPub) : VRes :=
  match L.rsaVerify pub (L.sha256 msg) sig.sig with
  | .ok => .ok
  | .fail => .err .rsa
  | .panic => .panic

/-- crypto/rsa.go:26-36 `RSASign` (`none`: error) -/
def rsaSignMsg (msg : Str) (priv : L.RsaPriv) (id : Str) : Option RSASig :=
  (L.rsaSign priv (L.sha256 msg)).map fun s => { sig := s, id := id }

namespace CryptoConfig

/-- crypto/crypto_config.go:23-30 `Hash` (MD5 = 1, SHA256 = 4, crypto/types.go:63-71) -/
def hash (c : CryptoConfig L) (msg : Str) : Option Str :=
  if c.hashScheme = 4 then some (L.sha256 msg)
  else if c.hashScheme = 1 then some (L.md5 msg)
  else none

/-- crypto/crypto_config.go:34-39 `Sign` -/
def sign (c : CryptoConfig L) (msg : Str) : Option RSASig :=
  if c.signScheme = go!"rsa" then rsaSignMsg msg c.signSecretKey c.selfID else none

/-- crypto/crypto_config.go:42-49 `Verify`: the key is looked up by the id inside the signature -/
def verify (c : CryptoConfig L) (msg : Str) (sig : RSASig) : VRes :=
  if c.signScheme = go!"rsa" then rsaVerifyMsg msg sig (c.signPublicMap.get sig.id) else .err .scheme

/-- crypto/crypto_config.go:52-58 `ThresholdSign` with crypto/bls.go:66-73. On an unsupported scheme the returned
fragment is zero (nil signature). -/
def thresholdSign (c : CryptoConfig L) (msg : Str) : SigFragment L × Bool :=
  if c.thresholdScheme = go!"bls" then ({ sign := some (L.blsSign c.thresholdSecretKey msg), id := c.selfID }, true)
  else ({ sign := none, id := [] }, false)

end CryptoConfig

/-- Insertion into a list sorted by byte order. -/
def insertStr (a : Str) : List Str → List Str
  | [] => [a]
  | b :: t => if Str.le a b then a :: b :: t else b :: insertStr a t

/-- sort.Sort(CTngIDs(ids)) (crypto/bls.go:91 with crypto/types.go:44-54). sort.Sort is not stable, but equal strings
are indistinguishable, so every correct sort gives this list. -/
def sortStr : List Str → List Str
  | [] => []
  | a :: t => insertStr a (sortStr t)

/-- Result of aggregation: error, panic (nil signature pointer in some fragment), or a threshold signature. -/
inductive AggRes (L : Lib) where
  | err
  | panic
  | ok (t : ThresholdSig L)

/-- crypto/bls.go:76-94 `ThresholdAggregate` -/
def thresholdAggregate (sigs : List (SigFragment L)) (threshold : Int) : AggRes L :=
  if (sigs.length : Int) < threshold then .err
  else
    match sigs.mapM (fun f => f.sign) with
    | none => .panic
    | some real => .ok { ids := sortStr (sigs.map (·.id)), sign := some (L.blsAggregate real) }

/-- crypto/bls.go:97-105 `ThresholdSig.Verify`: a missing id reads as the zero public key -/
def ThresholdSig.verify (t : ThresholdSig L) (msg : Str) (pubs : GoMap Str L.BlsPub) : LibRes :=
  L.blsFastAggVerify t.sign (t.ids.map fun i => (pubs.get i).getD L.blsZeroPub) msg

/-- crypto/bls.go:108-111 `SigFragment.Verify` -/
def SigFragment.verify (f : SigFragment L) (msg : Str) (pubs : GoMap Str L.BlsPub) : LibRes :=
  match f.sign with
  | none => .panic
  | some σ => L.blsVerify σ ((pubs.get f.id).getD L.blsZeroPub) msg

namespace CryptoConfig

/-- crypto/crypto_config.go:61-71 `ThresholdAggregate` -/
def thresholdAggregate (c : CryptoConfig L) (sigs : List (SigFragment L)) : AggRes L :=
  if c.thresholdScheme = go!"bls" then CTng.thresholdAggregate sigs c.threshold else .err

/-- crypto/crypto_config.go:75-84 `ThresholdVerify` -/
def thresholdVerify (c : CryptoConfig L) (msg : Str) (t : ThresholdSig L) : VRes :=
  if c.thresholdScheme = go!"bls" then
    match t.verify msg c.thresholdPublicMap with
    | .ok => .ok
    | .fail => .err .threshold
    | .panic => .panic
  else .err .scheme

/-- crypto/crypto_config.go:88-97 `FragmentVerify` -/
def fragmentVerify (c : CryptoConfig L) (msg : Str) (f : SigFragment L) : VRes :=
  if c.thresholdScheme = go!"bls" then
    match f.verify msg c.thresholdPublicMap with
    | .ok => .ok
    | .fail => .err .threshold
    | .panic => .panic
  else .err .scheme

end CryptoConfig
end CTng
