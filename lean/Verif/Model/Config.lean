import Verif.Model.Wire
import Verif.Model.JsonIndent
import Verif.Model.Gen
/-
The configuration files: their JSON text as Gen and crypto write it, and the start of the five programs, which read it.
`encoding/json` as in `Model/Wire.lean`; `math/big`'s own (un)marshaler writes and reads decimal numbers.
-/
set_option autoImplicit false

namespace CTng
namespace Wire

/-! ### Further targets of the decoder -/

/-- A JSON number as an integer; `none` for a fraction or an exponent. -/
def intTok : Str → Option Int
  | 45 :: t => (atoi t).map fun n : Nat => -(n : Int)
  | t => (atoi t).map Int.ofNat

/-- decode.go `literalStore` into an `int` (64 bits) -/
def dInt : Dec Int
  | cur, .null => (cur, true)
  | cur, .num tok =>
    match intTok tok with
    | some n => if -2 ^ 63 ≤ n ∧ n < 2 ^ 63 then (n, true) else (cur, false)
    | none => (cur, false)
  | cur, _ => (cur, false)

/-- math/big `Int.UnmarshalJSON` through a pointer: null is nil. (Its error ends the decoding of the whole file; here decoding
goes on. The error is reported in both cases.) -/
def dBig : Dec (Option Int)
  | _, .null => (none, true)
  | cur, .num tok =>
    match intTok tok with
    | some n => (some n, true)
    | none => (cur, false)
  | cur, _ => (cur, false)

/-- decode.go `object` into a map with string keys: every value is decoded into a fresh element -/
def dMapOf {V : Type} (z : V) (d : Dec V) : Dec (GoMap Str V)
  | _, .null => (.empty, true)
  | cur, .obj l => l.foldl (fun acc m => let r := d z m.2; (acc.1.set m.1 r.1, acc.2 && r.2)) (cur, true)
  | cur, _ => (cur, false)

/-- An integer. -/
def jInt (n : Int) : Json := .num (itoaInt n)

/-- math/big `Int.MarshalJSON` -/
def jBig : Option Int → Json
  | none => .null
  | some n => jInt n

/-- encode.go `mapEncoder`: the members in the order of their keys. (A nil map, which none of the writers has, is `null`.) -/
def jMap {V : Type} (f : V → Json) (m : GoMap Str V) : Json :=
  .obj ((sortStr m.keys).filterMap fun k => (m.get k).map fun v => (k, f v))

/-! ### Keys (crypto/rsa) -/

/-- `rsa.PublicKey` -/
structure PubNums where
  n : Option Int
  e : Int
  deriving DecidableEq, Repr

/-- `rsa.CRTValue` -/
structure CRTNums where
  exp : Option Int
  coeff : Option Int
  r : Option Int
  deriving DecidableEq, Repr

/-- `rsa.PrivateKey` with `rsa.PrecomputedValues` -/
structure PrivNums where
  n : Option Int
  e : Int
  d : Option Int
  primes : List (Option Int)
  dp : Option Int
  dq : Option Int
  qinv : Option Int
  crt : List CRTNums
  deriving DecidableEq, Repr

/-- The numbers an RSA key consists of. -/
structure RsaForm (L : Lib) where
  pub : L.RsaPub → PubNums
  ofPub : PubNums → L.RsaPub
  priv : L.RsaPriv → PrivNums
  ofPriv : PrivNums → L.RsaPriv

def pubJson (p : PubNums) : Json := .obj [(go!"N", jBig p.n), (go!"E", jInt p.e)]

def pubNames : List Str := [go!"N", go!"E"]

def dPub : Dec PubNums := dStruct pubNames fun i p j =>
  match i with
  | 0 => ({ p with n := (dBig p.n j).1 }, (dBig p.n j).2)
  | _ => ({ p with e := (dInt p.e j).1 }, (dInt p.e j).2)

def crtJson (c : CRTNums) : Json := .obj [(go!"Exp", jBig c.exp), (go!"Coeff", jBig c.coeff), (go!"R", jBig c.r)]

def crtNames : List Str := [go!"Exp", go!"Coeff", go!"R"]

def dCRT : Dec CRTNums := dStruct crtNames fun i c j =>
  match i with
  | 0 => ({ c with exp := (dBig c.exp j).1 }, (dBig c.exp j).2)
  | 1 => ({ c with coeff := (dBig c.coeff j).1 }, (dBig c.coeff j).2)
  | _ => ({ c with r := (dBig c.r j).1 }, (dBig c.r j).2)

/-- `rsa.PrecomputedValues` -/
def preJson (k : PrivNums) : Json :=
  .obj [(go!"Dp", jBig k.dp), (go!"Dq", jBig k.dq), (go!"Qinv", jBig k.qinv), (go!"CRTValues", jList crtJson k.crt)]

def preNames : List Str := [go!"Dp", go!"Dq", go!"Qinv", go!"CRTValues"]

def dPre : Dec PrivNums := dStruct preNames fun i k j =>
  match i with
  | 0 => ({ k with dp := (dBig k.dp j).1 }, (dBig k.dp j).2)
  | 1 => ({ k with dq := (dBig k.dq j).1 }, (dBig k.dq j).2)
  | 2 => ({ k with qinv := (dBig k.qinv j).1 }, (dBig k.qinv j).2)
  | _ => ({ k with crt := (dList ⟨none, none, none⟩ dCRT k.crt j).1 }, (dList ⟨none, none, none⟩ dCRT k.crt j).2)

/-- The embedded public key's members come first. -/
def privJson (k : PrivNums) : Json :=
  .obj [(go!"N", jBig k.n), (go!"E", jInt k.e), (go!"D", jBig k.d), (go!"Primes", jList jBig k.primes),
    (go!"Precomputed", preJson k)]

def privNames : List Str := [go!"N", go!"E", go!"D", go!"Primes", go!"Precomputed"]

def dPriv : Dec PrivNums := dStruct privNames fun i k j =>
  match i with
  | 0 => ({ k with n := (dBig k.n j).1 }, (dBig k.n j).2)
  | 1 => ({ k with e := (dInt k.e j).1 }, (dInt k.e j).2)
  | 2 => ({ k with d := (dBig k.d j).1 }, (dBig k.d j).2)
  | 3 => ({ k with primes := (dList none dBig k.primes j).1 }, (dList none dBig k.primes j).2)
  | _ => dPre k j

def pubZero : PubNums := ⟨none, 0⟩
def privZero : PrivNums := ⟨none, 0, none, [], none, none, none, []⟩

/-! ### Stored crypto configurations -/

section
variable {L : Lib}

/-- crypto/types.go:283-295 -/
def storedJson (F : RsaForm L) (s : StoredConfig L) : Json :=
  .obj [(go!"SelfID", .str s.selfID), (go!"Threshold", jInt s.threshold), (go!"N", jInt s.n),
    (go!"HashScheme", .num (itoa s.hashScheme)), (go!"SignScheme", .str s.signScheme),
    (go!"ThresholdScheme", .str s.thresholdScheme), (go!"SignPublicMap", jMap (fun p => pubJson (F.pub p)) s.signPublicMap),
    (go!"SignSecretKey", privJson (F.priv s.signSecretKey)),
    (go!"ThresholdPublicMap", jMap (fun b => .str (b64enc b)) s.thresholdPublicMap),
    (go!"ThresholdSecretKey", .str (b64enc s.thresholdSecretKey))]

/-- crypto/types.go:283-295 -/
def storedNames : List Str :=
  [go!"SelfID", go!"Threshold", go!"N", go!"HashScheme", go!"SignScheme", go!"ThresholdScheme", go!"SignPublicMap",
    go!"SignSecretKey", go!"ThresholdPublicMap", go!"ThresholdSecretKey"]

/-- `new(StoredCryptoConfig)` (crypto/crypto_IO.go:82) -/
def storedZero (F : RsaForm L) : StoredConfig L :=
  { threshold := 0, n := 0, hashScheme := 0, signScheme := [], thresholdScheme := [], selfID := [], signPublicMap := .empty,
    signSecretKey := F.ofPriv privZero, thresholdPublicMap := .empty, thresholdSecretKey := [] }

/-- A public key as an element of a map. -/
def dRsaPub (F : RsaForm L) : Dec L.RsaPub := fun cur j => let r := dPub (F.pub cur) j; (F.ofPub r.1, r.2)

def dRsaPriv (F : RsaForm L) : Dec L.RsaPriv := fun cur j => let r := dPriv (F.priv cur) j; (F.ofPriv r.1, r.2)

/-- crypto/types.go:283-295 -/
def dStored (F : RsaForm L) : Dec (StoredConfig L) := dStruct storedNames fun i s j =>
  match i with
  | 0 => ({ s with selfID := (dStr s.selfID j).1 }, (dStr s.selfID j).2)
  | 1 => ({ s with threshold := (dInt s.threshold j).1 }, (dInt s.threshold j).2)
  | 2 => ({ s with n := (dInt s.n j).1 }, (dInt s.n j).2)
  | 3 => ({ s with hashScheme := (dNat (2 ^ 63) s.hashScheme j).1 }, (dNat (2 ^ 63) s.hashScheme j).2)
  | 4 => ({ s with signScheme := (dStr s.signScheme j).1 }, (dStr s.signScheme j).2)
  | 5 => ({ s with thresholdScheme := (dStr s.thresholdScheme j).1 }, (dStr s.thresholdScheme j).2)
  | 6 => ({ s with signPublicMap := (dMapOf (F.ofPub pubZero) (dRsaPub F) s.signPublicMap j).1 },
      (dMapOf (F.ofPub pubZero) (dRsaPub F) s.signPublicMap j).2)
  | 7 => ({ s with signSecretKey := (dRsaPriv F s.signSecretKey j).1 }, (dRsaPriv F s.signSecretKey j).2)
  | 8 => ({ s with thresholdPublicMap := (dMapOf [] dBytes s.thresholdPublicMap j).1 },
      (dMapOf [] dBytes s.thresholdPublicMap j).2)
  | _ => ({ s with thresholdSecretKey := (dBytes s.thresholdSecretKey j).1 }, (dBytes s.thresholdSecretKey j).2)

/-- util/IO.go:49 `WriteData` (by crypto/crypto_IO.go:71-72) and the `json.Unmarshal` of crypto/crypto_IO.go:84, 95 and 107 -/
def confJson (F : RsaForm L) : ConfJson L where
  enc s := Json.marshalIndent [] (go!"  ") (storedJson F s)
  dec t := (unmarshal (storedZero F) (dStored F) t).1

/-- Gen/Gen.go:226-237 `write_all_configs_to_file` -/
def genText (j : Json) : Str := Json.marshalIndent (go!" ") (go!" ") j

end

/-! ### Private and public configurations -/

open Gen

/-- A list of strings. (An empty one is written as `null` here; an empty list that is not nil is written as `[]`, which is read
in the same way.) -/
def jStrs (l : List Str) : Json := jList .str l

/-- CA/types.go:61-68 (`certPerPeriod` is a count) -/
def caPrivJson (p : CAPriv) : Json :=
  .obj [(go!"Signer", .str p.signer), (go!"Port", .str p.port), (go!"Loggerlist", jStrs p.loggers),
    (go!"Monitorlist", jStrs p.monitors), (go!"Gossiperlist", jStrs p.gossipers), (go!"Cert_per_period", .num (itoa p.certPerPeriod))]

def caPrivNames : List Str :=
  [go!"Signer", go!"Port", go!"Loggerlist", go!"Monitorlist", go!"Gossiperlist", go!"Cert_per_period"]

/-- CA/types.go:61-68 -/
def dCAPriv : Dec CAPriv := dStruct caPrivNames fun i p j =>
  match i with
  | 0 => ({ p with signer := (dStr p.signer j).1 }, (dStr p.signer j).2)
  | 1 => ({ p with port := (dStr p.port j).1 }, (dStr p.port j).2)
  | 2 => ({ p with loggers := (dList [] dStr p.loggers j).1 }, (dList [] dStr p.loggers j).2)
  | 3 => ({ p with monitors := (dList [] dStr p.monitors j).1 }, (dList [] dStr p.monitors j).2)
  | 4 => ({ p with gossipers := (dList [] dStr p.gossipers j).1 }, (dList [] dStr p.gossipers j).2)
  | _ => ({ p with certPerPeriod := (dNat (2 ^ 63) p.certPerPeriod j).1 }, (dNat (2 ^ 63) p.certPerPeriod j).2)

def caPrivZero : CAPriv := ⟨[], [], [], [], [], 0⟩

/-- Logger/Types.go:24-30 -/
def logPrivJson (p : LoggerPriv) : Json :=
  .obj [(go!"Signer", .str p.signer), (go!"Port", .str p.port), (go!"CAlist", jStrs p.cas),
    (go!"Monitorlist", jStrs p.monitors), (go!"Gossiperlist", jStrs p.gossipers)]

def logPrivNames : List Str := [go!"Signer", go!"Port", go!"CAlist", go!"Monitorlist", go!"Gossiperlist"]

/-- Logger/Types.go:24-30 -/
def dLogPriv : Dec LoggerPriv := dStruct logPrivNames fun i p j =>
  match i with
  | 0 => ({ p with signer := (dStr p.signer j).1 }, (dStr p.signer j).2)
  | 1 => ({ p with port := (dStr p.port j).1 }, (dStr p.port j).2)
  | 2 => ({ p with cas := (dList [] dStr p.cas j).1 }, (dList [] dStr p.cas j).2)
  | 3 => ({ p with monitors := (dList [] dStr p.monitors j).1 }, (dList [] dStr p.monitors j).2)
  | _ => ({ p with gossipers := (dList [] dStr p.gossipers j).1 }, (dList [] dStr p.gossipers j).2)

def logPrivZero : LoggerPriv := ⟨[], [], [], [], []⟩

/-- monitor/types.go:58-65 -/
def monPrivJson (p : MonitorPriv) : Json :=
  .obj [(go!"CA_URLs", jStrs p.cas), (go!"Logger_URLs", jStrs p.loggers), (go!"Signer", .str p.signer),
    (go!"Gossiper_URL", .str p.gossiperURL), (go!"Inbound_gossiper_port", .str p.inboundPort), (go!"Port", .str p.port)]

def monPrivNames : List Str :=
  [go!"CA_URLs", go!"Logger_URLs", go!"Signer", go!"Gossiper_URL", go!"Inbound_gossiper_port", go!"Port"]

/-- monitor/types.go:58-65 -/
def dMonPriv : Dec MonitorPriv := dStruct monPrivNames fun i p j =>
  match i with
  | 0 => ({ p with cas := (dList [] dStr p.cas j).1 }, (dList [] dStr p.cas j).2)
  | 1 => ({ p with loggers := (dList [] dStr p.loggers j).1 }, (dList [] dStr p.loggers j).2)
  | 2 => ({ p with signer := (dStr p.signer j).1 }, (dStr p.signer j).2)
  | 3 => ({ p with gossiperURL := (dStr p.gossiperURL j).1 }, (dStr p.gossiperURL j).2)
  | 4 => ({ p with inboundPort := (dStr p.inboundPort j).1 }, (dStr p.inboundPort j).2)
  | _ => ({ p with port := (dStr p.port j).1 }, (dStr p.port j).2)

def monPrivZero : MonitorPriv := ⟨[], [], [], [], [], []⟩

/-- gossiper/types.go:21-25 -/
def gosPrivJson (p : GossiperPriv) : Json :=
  .obj [(go!"Connected_Gossipers", jStrs p.connected), (go!"Owner_URL", .str p.ownerURL), (go!"Port", .str p.port)]

def gosPrivNames : List Str := [go!"Connected_Gossipers", go!"Owner_URL", go!"Port"]

/-- gossiper/types.go:21-25 -/
def dGosPriv : Dec GossiperPriv := dStruct gosPrivNames fun i p j =>
  match i with
  | 0 => ({ p with connected := (dList [] dStr p.connected j).1 }, (dList [] dStr p.connected j).2)
  | 1 => ({ p with ownerURL := (dStr p.ownerURL j).1 }, (dStr p.ownerURL j).2)
  | _ => ({ p with port := (dStr p.port j).1 }, (dStr p.port j).2)

def gosPrivZero : GossiperPriv := ⟨[], [], []⟩

/-- CA/types.go:53-59 and Logger/Types.go:16-22, the same members -/
structure PubConf where
  cas : List Str
  loggers : List Str
  mmd : Int
  mrd : Int
  httpVers : List Str
  deriving DecidableEq, Repr

def pubConfJson (p : PubConf) : Json :=
  .obj [(go!"All_CA_URLs", jStrs p.cas), (go!"All_Logger_URLs", jStrs p.loggers), (go!"MMD", jInt p.mmd), (go!"MRD", jInt p.mrd),
    (go!"Http_vers", jStrs p.httpVers)]

def pubConfNames : List Str := [go!"All_CA_URLs", go!"All_Logger_URLs", go!"MMD", go!"MRD", go!"Http_vers"]

/-- CA/types.go:53-59, Logger/Types.go:16-22 -/
def dPubConf : Dec PubConf := dStruct pubConfNames fun i p j =>
  match i with
  | 0 => ({ p with cas := (dList [] dStr p.cas j).1 }, (dList [] dStr p.cas j).2)
  | 1 => ({ p with loggers := (dList [] dStr p.loggers j).1 }, (dList [] dStr p.loggers j).2)
  | 2 => ({ p with mmd := (dInt p.mmd j).1 }, (dInt p.mmd j).2)
  | 3 => ({ p with mrd := (dInt p.mrd j).1 }, (dInt p.mrd j).2)
  | _ => ({ p with httpVers := (dList [] dStr p.httpVers j).1 }, (dList [] dStr p.httpVers j).2)

def pubConfZero : PubConf := ⟨[], [], 0, 0, []⟩

/-- monitor/types.go:67-73 -/
structure MonPub where
  cas : List Str
  loggers : List Str
  wait : Int
  mmd : Int
  mrd : Int
  deriving DecidableEq, Repr

def monPubJson (p : MonPub) : Json :=
  .obj [(go!"All_CA_URLs", jStrs p.cas), (go!"All_Logger_URLs", jStrs p.loggers), (go!"Gossip_wait_time", jInt p.wait),
    (go!"MMD", jInt p.mmd), (go!"MRD", jInt p.mrd)]

def monPubNames : List Str := [go!"All_CA_URLs", go!"All_Logger_URLs", go!"Gossip_wait_time", go!"MMD", go!"MRD"]

/-- monitor/types.go:67-73 -/
def dMonPub : Dec MonPub := dStruct monPubNames fun i p j =>
  match i with
  | 0 => ({ p with cas := (dList [] dStr p.cas j).1 }, (dList [] dStr p.cas j).2)
  | 1 => ({ p with loggers := (dList [] dStr p.loggers j).1 }, (dList [] dStr p.loggers j).2)
  | 2 => ({ p with wait := (dInt p.wait j).1 }, (dInt p.wait j).2)
  | 3 => ({ p with mmd := (dInt p.mmd j).1 }, (dInt p.mmd j).2)
  | _ => ({ p with mrd := (dInt p.mrd j).1 }, (dInt p.mrd j).2)

def monPubZero : MonPub := ⟨[], [], 0, 0, 0⟩

/-- gossiper/types.go:13-19 -/
structure GosPub where
  wait : Int
  mmd : Int
  mrd : Int
  gossipers : List Str
  signers : List Str
  deriving DecidableEq, Repr

def gosPubJson (p : GosPub) : Json :=
  .obj [(go!"Gossip_wait_time", jInt p.wait), (go!"MMD", jInt p.mmd), (go!"MRD", jInt p.mrd),
    (go!"Gossiper_URLs", jStrs p.gossipers), (go!"Signer_URLs", jStrs p.signers)]

def gosPubNames : List Str := [go!"Gossip_wait_time", go!"MMD", go!"MRD", go!"Gossiper_URLs", go!"Signer_URLs"]

/-- gossiper/types.go:13-19 -/
def dGosPub : Dec GosPub := dStruct gosPubNames fun i p j =>
  match i with
  | 0 => ({ p with wait := (dInt p.wait j).1 }, (dInt p.wait j).2)
  | 1 => ({ p with mmd := (dInt p.mmd j).1 }, (dInt p.mmd j).2)
  | 2 => ({ p with mrd := (dInt p.mrd j).1 }, (dInt p.mrd j).2)
  | 3 => ({ p with gossipers := (dList [] dStr p.gossipers j).1 }, (dList [] dStr p.gossipers j).2)
  | _ => ({ p with signers := (dList [] dStr p.signers j).1 }, (dList [] dStr p.signers j).2)

def gosPubZero : GosPub := ⟨0, 0, 0, [], []⟩

/-- client/types.go:16-26 -/
structure ClientConf where
  monitors : List Str
  url : Str
  port : Str
  mmd : Int
  mrd : Int
  sthPath : Str
  crvPath : Str
  pomPath : Str
  deriving DecidableEq, Repr

def clientJson (p : ClientConf) : Json :=
  .obj [(go!"Monitor_URLs", jStrs p.monitors), (go!"Client_URL", .str p.url), (go!"Port", .str p.port), (go!"MMD", jInt p.mmd),
    (go!"MRD", jInt p.mrd), (go!"STH_Storage_filepath", .str p.sthPath), (go!"CRV_Storage_filepath", .str p.crvPath),
    (go!"PoM_Store_filepath", .str p.pomPath)]

def clientNames : List Str :=
  [go!"Monitor_URLs", go!"Client_URL", go!"Port", go!"MMD", go!"MRD", go!"STH_Storage_filepath", go!"CRV_Storage_filepath",
    go!"PoM_Store_filepath"]

/-- client/types.go:16-26 -/
def dClient : Dec ClientConf := dStruct clientNames fun i p j =>
  match i with
  | 0 => ({ p with monitors := (dList [] dStr p.monitors j).1 }, (dList [] dStr p.monitors j).2)
  | 1 => ({ p with url := (dStr p.url j).1 }, (dStr p.url j).2)
  | 2 => ({ p with port := (dStr p.port j).1 }, (dStr p.port j).2)
  | 3 => ({ p with mmd := (dInt p.mmd j).1 }, (dInt p.mmd j).2)
  | 4 => ({ p with mrd := (dInt p.mrd j).1 }, (dInt p.mrd j).2)
  | 5 => ({ p with sthPath := (dStr p.sthPath j).1 }, (dStr p.sthPath j).2)
  | 6 => ({ p with crvPath := (dStr p.crvPath j).1 }, (dStr p.crvPath j).2)
  | _ => ({ p with pomPath := (dStr p.pomPath j).1 }, (dStr p.pomPath j).2)

def clientZero : ClientConf := ⟨[], [], [], 0, 0, [], [], []⟩

/-! ### The generators of the public configurations -/

/-- Gen/Gen.go:133-147 `GenerateCA_public_config` and 149-163 `GenerateLogger_public_config` (the templates of
CA/types.go:198-206 and Logger/Types.go:145-153 are overwritten entirely) -/
def genPub (Ls Cs : List Str) (mmd mrd : Int) (vers : List Str) : PubConf := ⟨Cs, Ls, mmd, mrd, vers⟩

/-- Gen/Gen.go:165-173 `GenerateMonitor_public_config` (four of its arguments are not used) -/
def genMonPub (Cs Ls : List Str) (mmd mrd wait : Int) : MonPub := ⟨Cs, Ls, wait, mmd, mrd⟩

/-- Gen/Gen.go:193-201 `GenerateGossiper_public_config` (four of its arguments are not used) -/
def genGosPub (Gs Ms : List Str) (mmd mrd wait : Int) : GosPub := ⟨wait, mmd, mrd, Gs, Ms⟩

/-! ### The files `Generateall` writes -/

/-- The three files of a process. -/
structure Texts where
  pub : Option Str
  priv : Option Str
  crypto : Option Str

section
variable {L : Lib} (F : RsaForm L) (mmd mrd : Int)

/-- Gen/Gen.go:322, 338-352. The argument `MRD` of `Generateall` is not used: `MMD` is passed twice, here and below. -/
def caTexts (f : Files L RolePub CAPriv) : Texts :=
  let _ := mrd
  ⟨some (genText (pubConfJson (genPub f.pub.loggers f.pub.cas mmd mmd [go!"1.1"]))), some (genText (caPrivJson f.priv)),
    some (genText (storedJson F f.crypto))⟩

/-- Gen/Gen.go:330, 354-368 -/
def loggerTexts (f : Files L RolePub LoggerPriv) : Texts :=
  let _ := mrd
  ⟨some (genText (pubConfJson (genPub f.pub.loggers f.pub.cas mmd mmd [go!"1.1"]))), some (genText (logPrivJson f.priv)),
    some (genText (storedJson F f.crypto))⟩

/-- Gen/Gen.go:370, 378-394 -/
def monitorTexts (f : Files L RolePub MonitorPriv) : Texts :=
  let _ := mrd
  ⟨some (genText (monPubJson (genMonPub f.pub.cas f.pub.loggers mmd mmd 5))), some (genText (monPrivJson f.priv)),
    some (genText (storedJson F f.crypto))⟩

/-- Gen/Gen.go:396, 404-420 -/
def gossiperTexts (f : Files L GossiperPub GossiperPriv) : Texts :=
  let _ := mrd
  ⟨some (genText (gosPubJson (genGosPub f.pub.gossipers f.pub.signers mmd mmd 5))), some (genText (gosPrivJson f.priv)),
    some (genText (storedJson F f.crypto))⟩

end

/-! ### Starting -/

/-- How the start of a process ends. -/
inductive Started (α : Type) where
  /-- `log.Fatal` -/
  | fatal
  | panic
  | running (a : α)

/-- util/IO.go:126-137 `LoadConfiguration` through a pointer to a pointer; the file is `none` if it cannot be read. Both a nil
pointer (gossiper, monitor) and a fresh zero value (CA, logger) are decoded into as a zero value. -/
def loadConf {α : Type} (z : α) (d : Dec α) (file : Option Str) : Started (Option α) :=
  match file with
  | none => .fatal
  | some t =>
    let r := unmarshal (some z) (dPtr z d) t
    if r.2 then .running r.1 else .fatal

section
variable {L : Lib} (F : RsaForm L) (K : KeyLib L)

/-- crypto/crypto_IO.go:81-90 `ReadCryptoConfig`: no configuration for an unreadable file; the error of the JSON decoder is
ignored, that of the key conversion is returned with the configuration (the flag) -/
def readCryptoFile (file : Option Str) : Option (CryptoConfig L) × Bool :=
  match file with
  | none => (none, false)
  | some t => let r := readCrypto (confJson F) K t; (some r.1, r.2)

/-- crypto/crypto_IO.go:92-101 `ReadVerifyOnlyCryptoConfig` -/
def readVerifyFile (file : Option Str) : Option (CryptoConfig L) × Bool :=
  match file with
  | none => (none, false)
  | some t => let r := readVerifyOnly (confJson F) K t; (some r.1, r.2)

/-- The pointers a context holds: `none` is nil. -/
structure Context (L : Lib) (Pub Priv : Type) where
  pub : Option Pub
  priv : Option Priv
  crypto : Option (CryptoConfig L)

/-- gossiper/Init.go:51-79 `InitializeGossiperContext`, the configurations: the private one is loaded first; the error of
`ReadCryptoConfig` is dropped. (The empty storages and the constants are those of `Model/Gossiper.lean`.) -/
def startGossiper (f : Texts) : Started (Context L GosPub GossiperPriv) :=
  match loadConf gosPrivZero dGosPriv f.priv with
  | .fatal => .fatal
  | .panic => .panic
  | .running priv =>
    match loadConf gosPubZero dGosPub f.pub with
    | .fatal => .fatal
    | .panic => .panic
    | .running pub => .running ⟨pub, priv, (readCryptoFile F K f.crypto).1⟩

/-- monitor/types.go:312-361 `InitializeMonitorContext`, likewise -/
def startMonitor (f : Texts) : Started (Context L MonPub MonitorPriv) :=
  match loadConf monPrivZero dMonPriv f.priv with
  | .fatal => .fatal
  | .panic => .panic
  | .running priv =>
    match loadConf monPubZero dMonPub f.pub with
    | .fatal => .fatal
    | .panic => .panic
    | .running pub => .running ⟨pub, priv, (readCryptoFile F K f.crypto).1⟩

/-- Logger/Types.go:93-133 `InitializeLoggerContext`: the public configuration is loaded first; reading the keys out of a nil
crypto configuration panics -/
def startLogger (f : Texts) : Started (Context L PubConf LoggerPriv) :=
  match loadConf pubConfZero dPubConf f.pub with
  | .fatal => .fatal
  | .panic => .panic
  | .running pub =>
    match loadConf logPrivZero dLogPriv f.priv with
    | .fatal => .fatal
    | .panic => .panic
    | .running priv =>
      match (readCryptoFile F K f.crypto).1 with
      | none => .panic
      | some c => .running ⟨pub, priv, some c⟩

/-- CA/types.go:297-344 `InitializeCAContext`: as the logger; then the root certificate is made, which reads the private
configuration (CA/ca.go:96-97). (What crypto/x509 does when the key cannot sign is not modelled.) -/
def startCA (f : Texts) : Started (Context L PubConf CAPriv) :=
  match loadConf pubConfZero dPubConf f.pub with
  | .fatal => .fatal
  | .panic => .panic
  | .running pub =>
    match loadConf caPrivZero dCAPriv f.priv with
    | .fatal => .fatal
    | .panic => .panic
    | .running priv =>
      match (readCryptoFile F K f.crypto).1, priv with
      | some c, some p => .running ⟨pub, some p, some c⟩
      | _, _ => .panic

/-- client/types.go:115-135 `InitializeClientContext`, the configurations: `config` is what `ctx.Config` points to (`none`: nil,
which json.Unmarshal refuses). An error of the crypto configuration is fatal. -/
def startClient (config : Option ClientConf) (file crypto : Option Str) : Started (ClientConf × CryptoConfig L) :=
  match file, config with
  | some t, some z =>
    let r := unmarshal z dClient t
    if r.2 then
      match readVerifyFile F K crypto with
      | (some c, true) => .running (r.1, c)
      | _ => .fatal
    else .fatal
  | _, _ => .fatal

end
end Wire
end CTng
