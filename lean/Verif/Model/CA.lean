import Verif.Model.X509
import Verif.Model.Util
/- Model of CA/CRV.go, CA/ca.go, CA/server.go and the context of CA/types.go. -/
set_option autoImplicit false

namespace CTng

/-! ### CA/CRV.go -/

/-- The pointer `CRV_pre_update`: to a bit set of its own, or the same pointer as `CRV_current` (CA/server.go:423). -/
inductive PrePtr where
  | own (b : BitSet)
  | alias
  deriving DecidableEq, Repr

/-- CA/CRV.go:32-36 -/
structure CRV where
  current : BitSet
  pre : PrePtr
  deriving DecidableEq, Repr

/-- The size of every revocation vector, CA/CRV.go:46-47 -/
def crvSize : Nat := 1000000

namespace CRV

/-- CA/CRV.go:44-50 `CRV_init` -/
def init : CRV := ⟨BitSet.new crvSize, .own (BitSet.new crvSize)⟩

/-- CA/CRV.go:53-67 `GetDeltaCRV` before marshalling: equal pointers give an empty vector -/
def delta (c : CRV) : BitSet :=
  match c.pre with
  | .alias => BitSet.new crvSize
  | .own b => c.current.symDiff b

/-- CA/CRV.go:82-84 `Revoke` (index not negative). When the two pointers are equal both see the change. -/
def revoke (c : CRV) (i : Nat) : CRV := { c with current := c.current.set i }

/-- CA/CRV.go:86-92 `MassRevoke` with the random positions given -/
def massRevoke (c : CRV) (positions : List Nat) : CRV := { c with current := positions.foldl BitSet.set c.current }

/-- CA/server.go:423 `ctx.CRV.CRV_pre_update = ctx.CRV.CRV_current`: the pointer is copied, not the bits -/
def closePeriod (c : CRV) : CRV := { c with pre := .alias }

end CRV

/-! ### The context -/

variable {L : Lib}

/-- CA/types.go:21-68: what does not change -/
structure CAConf (L : Lib) where
  signer : Str
  crypto : CryptoConfig L
  certPerPeriod : Nat
  /-- 0 honest, 1-6 misbehaving test types -/
  caType : Nat
  misbehaviorInterval : Nat

/-- CA/types.go:21-51: what changes. `issued` records the certificates sent to the loggers
(`Send_Signed_PreCert_To_Loggers`). -/
structure CAState where
  certCounter : Nat
  crv : CRV
  requestCount : Nat
  onlineDuration : Nat
  revStorage : GoMap Str GossipObj
  revStorageFake : GoMap Str GossipObj
  sthStorage : GoMap Str GossipObj
  pool : CertPool
  fresh : Bool
  issued : List Cert

variable (X : XLib)

/-! ### CA/ca.go -/

/-- CA/ca.go:20-68 `Genrate_Unsigned_PreCert`: the template and the new counter. (Simplified: key usage, validity times,
host names and the random serial number do not occur in any check of the project.) -/
def genratePreCert (counter : Nat) (issuerCN subjectCN : Str) (isCA : Bool) : Cert × Nat :=
  ({ raw := [], rawTBS := [], signature := [], rawSubject := [], subjectCN := subjectCN, rawIssuer := [],
     issuerCN := issuerCN, subjectKeyId := [], authorityKeyId := [], serial := 0, isCA := isCA, publicKey := [],
     extensions := [], extraExtensions := [(oidCTng, X.encExt ⟨counter, []⟩)] }, counter + 1)

/-- CA/ca.go:71-93 `Sign_certificate`: the key id defaults to the hash of the public key -/
def signCertificate (sha : Str → Str) (cert root : Cert) (pub : Str) : Cert :=
  X.createCert (if cert.subjectKeyId.length = 0 then { cert with subjectKeyId := sha pub } else cert) root pub

/-- CA/ca.go:96-105, 115-121 `Generate_Root_Certificate`: two templates are made and the counter is stepped back once -/
def generateRoot (sha : Str → Str) (counter : Nat) (signer pub : Str) : Cert × Nat :=
  let (unsigned, c1) := genratePreCert X counter signer signer true
  let (pre, c2) := genratePreCert X c1 signer signer true
  (signCertificate X sha pre unsigned pub, c2 - 1)

/-- CA/ca.go:124-130: the `i`-th dummy subject -/
def dummySubject (i offset : Nat) : Str := go!"Testing Dummy " ++ itoa (i + offset)

/-- CA/ca.go:180-189 `Generate_N_Signed_PreCert_with_priv`: `pub i` is the public key generated for subject `i` -/
def issueLoop (sha : Str → Str) (root : Cert) (signer : Str) (pub : Nat → Str) (offset : Nat) :
    (n i counter : Nat) → List Cert × Nat
  | 0, _, counter => ([], counter)
  | n + 1, i, counter =>
    let (t, c1) := genratePreCert X counter signer (dummySubject i offset) false
    let (rest, c2) := issueLoop sha root signer pub offset n (i + 1) c1
    (signCertificate X sha t root (pub i) :: rest, c2)

/-- CA/types.go:297-344 `InitializeCAContext`: the root certificate and the initial state. -/
def initCA (sha : Str → Str) (signer rootPub : Str) : Cert × CAState :=
  let (root, counter) := generateRoot X sha 0 signer rootPub
  (root, { certCounter := counter, crv := CRV.init, requestCount := 0, onlineDuration := 0, revStorage := .empty,
           revStorageFake := .empty, sthStorage := .empty, pool := CertPool.new, fresh := true, issued := [] })

/-- Adding the pre-certificates to the pool, CA/server.go:365-370 (the pool never panics, see C66). -/
def addAll (p : CertPool) : List Cert → CertPool
  | [] => p
  | c :: t => match p.addCert c with
    | .ok p' => addAll p' t
    | .panic => p

/-- CA/server.go:337-371, first part of `PeriodicTask`: wipe the tree heads, issue certificates, remember and send them -/
def startRound (c : CAConf L) (root : Cert) (pub : Nat → Str) (s : CAState) : CAState :=
  let (certs, counter) := issueLoop X L.sha256 root c.signer pub s.certCounter c.certPerPeriod 0 s.certCounter
  { s with sthStorage := .empty, certCounter := counter, pool := addAll s.pool (certs.map (Cert.toPrecert X)),
           issued := s.issued ++ certs }

/-! ### Revocations -/

/-- The zero `RSASig` of a failed signing operation, whose error is ignored. -/
def zeroSig : RSASig := ⟨[], []⟩

/-- CA/CRV.go:98-117: the delta of a revocation of type 0 (honest) or 1 (fake: one more bit). `none` is the panic on an
undecodable delta. -/
def revDelta (crv : CRV) (online : Nat) (fake : Bool) : Option Str :=
  if fake then (X.unmarshal (X.marshal crv.delta)).map fun m => X.marshal (m.set (1 + online))
  else some (X.marshal crv.delta)

/-- CA/CRV.go:94-146 `Generate_Revocation`; `none` is the panic on an undecodable delta -/
def generateRevocation (c : CAConf L) (s : CAState) (period : Str) (fake : Bool) : Option GossipObj :=
  (revDelta X s.crv s.onlineDuration fake).map fun d =>
    let hash := L.sha256 (X.marshal s.crv.current)
    let hashDelta := L.sha256 d
    let hashRev := L.sha256 (period ++ hash ++ hashDelta)
    let srh := (rsaSignMsg hashRev c.crypto.signSecretKey c.crypto.selfID).getD zeroSig
    let rev : Revocation := ⟨period, X.compress d, srh.toStr⟩
    let p2 := X.encRev rev
    let sig := (rsaSignMsg (c.signer ++ go!"CRV" ++ p2) c.crypto.signSecretKey c.crypto.selfID).getD zeroSig
    { application := CTNG_APPLICATION, period := period, type := .REV_INIT, signer := c.signer, signers := [],
      sig := ⟨sig.toStr, []⟩, timestamp := [], cryptoScheme := go!"RSA", payload := ⟨c.signer, go!"CRV", p2⟩ }

/-- The period a revocation or tree head is built for: CA/server.go:406-419 (the zero-padded string is overwritten by
the plain one). -/
def caNextPeriod (t : Instant) : Str := itoa ((atoi (getCurrentPeriodNum t)).getD 0 + 1)

/-- CA/server.go:372-438, second part of `PeriodicTask` (`f1`, 20 seconds before the end of the period). `positions` are
the random positions of the first mass revocation. `none` is a panic. -/
def endRound (c : CAConf L) (t : Instant) (positions : List Nat) (s : CAState) : Option CAState :=
  let crv := if s.fresh then s.crv.massRevoke positions else s.crv
  let s1 := { s with crv := crv, fresh := false }
  let period := caNextPeriod t
  match generateRevocation X c s1 period false, generateRevocation X c s1 period true with
  | some rev, some fake =>
    some { s1 with crv := crv.closePeriod
                   revStorage := s.revStorage.set period rev
                   revStorageFake := s.revStorageFake.set period fake
                   onlineDuration := if s.requestCount > 0 then s.onlineDuration + 1 else s.onlineDuration
                   requestCount := 0
                   pool := CertPool.new }
  | _, _ => none

/-! ### Requests -/

/-- What the HTTP handler writes: an object, nothing, or it panics (division by zero; the server recovers). -/
inductive Answer where
  | obj (g : GossipObj)
  | nothing
  | panic
  deriving DecidableEq, Repr

/-- `m[k]` on a map of gossip objects: a missing key reads as the zero object, which is then encoded and sent. -/
def readObj (m : GoMap Str GossipObj) (k : Str) : GossipObj := (m.get k).getD GossipObj.zero

/-- The decision of CA/server.go:155-209 and Logger/server.go:55-108 (the two switch statements are the same):
`cnt` is the number of this request, `interval` the configured interval, `online` the number of rounds with requests. -/
def decide6 (type cnt interval online : Nat) (real fake : GossipObj) : Answer :=
  match type with
  | 0 => .obj real
  | 1 => if interval = 0 then .panic else if cnt % interval = 0 ∧ online = 1 then .obj fake else .obj real
  | 2 => .nothing
  | 3 => if interval = 0 then .panic else if cnt % interval = 0 ∨ online = 1 then .nothing else .obj real
  | 4 => if interval = 0 then .panic else if cnt % interval = 0 ∧ online = 1 then .obj fake else .obj real
  | 5 => if online = 1 then .nothing else .obj real
  | 6 => if interval = 0 then .panic else if cnt % interval = 0 ∧ online = 1 then .nothing else .obj real
  | _ => .nothing

/-- The key under which CA/server.go:143-154 looks up the stored revocation. -/
def caServedPeriod (t : Instant) : Str := itoa ((atoi (getCurrentPeriodNum t)).getD 0)

/-- CA/server.go:134-210 `requestREV`: an honest CA does not count requests -/
def requestREV (c : CAConf L) (t : Instant) (s : CAState) : Answer × CAState :=
  let cnt := if c.caType ≠ 0 then s.requestCount + 1 else 1
  let s' := if c.caType ≠ 0 then { s with requestCount := s.requestCount + 1 } else s
  (decide6 c.caType cnt c.misbehaviorInterval s.onlineDuration (readObj s.revStorage (caServedPeriod t))
    (readObj s.revStorageFake (caServedPeriod t)), s')

/-- CA/server.go:213-233 `receive_sth` on a decoded object. A failed verification panics in the handler, which the HTTP
server recovers: the state is unchanged. -/
def caReceiveSTH (c : CAConf L) (g : GossipObj) (s : CAState) : CAState :=
  if g.verify c.crypto = .ok then { s with sthStorage := s.sthStorage.set g.signer g } else s

/-- CA/server.go:236-263 `receive_poi` on a decoded proof of inclusion -/
def caReceivePOI (p : POI) (s : CAState) : CAState :=
  let info : LoggerInfo := ⟨readObj s.sthStorage p.loggerID, p⟩
  match s.pool.getBySKI p.subjectKeyId with
  | .ok (some target) =>
    match s.pool.updateBySKI p.subjectKeyId (target.updateExt X info) with
    | .ok pool => { s with pool := pool }
    | .panic => s
  | _ => s

/-! ### Final certificates -/

/-- CA/types.go:144-153 `UpdateforSigning` -/
def Cert.forSigning (x : Cert) : Cert :=
  { x with extraExtensions := x.extraExtensions ++ [(oidCTng, X.encExt (x.parseExt X))] }

/-- CA/server.go:300-317 `SignAllCerts`: the certificates of the pool with the extension as it is now, signed by the root.
(Called by `SaveToStorage`, CA/types.go:266-294, whose call in `PeriodicTask` is commented out. The change of the
certificates in the pool, which then carry the extra extension, is not modelled: the pool is replaced right after.) -/
def signAll (sha : Str → Str) (root : Cert) (s : CAState) : List Cert :=
  s.pool.getCerts.map fun x => signCertificate X sha (x.forSigning X) root x.publicKey

/-- Events of a CA. A panic in `endRound` (a timer goroutine) ends the process. -/
inductive CAEvent where
  | start (pub : Nat → Str)
  | finish (t : Instant) (positions : List Nat)
  | request (t : Instant)
  | sth (g : GossipObj)
  | poi (p : POI)
  | revoke (i : Nat)

def caStep (c : CAConf L) (root : Cert) (s : CAState) : CAEvent → Option CAState
  | .start pub => some (startRound X c root pub s)
  | .finish t pos => endRound X c t pos s
  | .request t => some (requestREV c t s).2
  | .sth g => some (caReceiveSTH c g s)
  | .poi p => some (caReceivePOI X p s)
  | .revoke i => some { s with crv := s.crv.revoke i }

def caRun (c : CAConf L) (root : Cert) (s : CAState) : List CAEvent → Option CAState
  | [] => some s
  | e :: t =>
    match caStep X c root s e with
    | none => none
    | some s' => caRun c root s' t

end CTng
