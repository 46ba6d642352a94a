import Verif.Model.CA
/- Model of package Logger: buildmerkle.go, server.go, Types.go. -/
set_option autoImplicit false

namespace CTng
variable {L : Lib}

/-- Logger/Types.go:16-56: what does not change -/
structure LoggerConf (L : Lib) where
  signer : Str
  caList : List Str
  allCAs : List Str
  crypto : CryptoConfig L
  /-- 0 honest, 1-6 misbehaving test types -/
  loggerType : Nat
  misbehaviorInterval : Nat

/-- Logger/Types.go:32-56: what changes. `sentPOIs` records the proofs posted to CAs with their target. -/
structure LoggerState where
  pool : CertPool
  onlinePeriod : Nat
  requestCount : Nat
  onlineDuration : Nat
  sthStorage : GoMap Str GossipObj
  sthStorageFake : GoMap Str GossipObj
  sentSTHs : List (Str × GossipObj)
  sentPOIs : List (Str × POI)

/-- Logger/Types.go:93-133 `InitializeLoggerContext` -/
def initLogger : LoggerState :=
  { pool := CertPool.new, onlinePeriod := 0, requestCount := 0, onlineDuration := 0, sthStorage := .empty,
    sthStorageFake := .empty, sentSTHs := [], sentPOIs := [] }

variable (X : XLib)

/-- Result of `BuildMerkleTreeFromCerts`. -/
structure Built where
  sth : GossipObj
  root : Str
  pois : List POI

/-- Logger/buildmerkle.go:14-51 `BuildMerkleTreeFromCerts` at the instant `t`; `none` is the nil-pointer panic when no
tree could be built (`GeneratePOI(nil)`). -/
def buildMerkle (c : LoggerConf L) (t : Instant) (certs : List Cert) (periodNum : Nat) : Option Built :=
  (merkleNew L.sha256 (certs.map Cert.block)).map fun tree =>
    let pois := certs.zipIdx.map fun (cert, i) =>
      ({ poi := tree.proofs[i]?, subjectKeyId := cert.subjectKeyId, issuer := cert.issuerCN, loggerID := c.signer } : POI)
    let data : STHData :=
      { signer := c.signer, timestamp := t.rfc3339, period := getCurrentPeriod t, rootHash := hexEncode tree.root,
        treeSize := certs.length }
    let p1 := hexEncode (X.encSTH data)
    let sig := (rsaSignMsg (c.signer ++ p1) c.crypto.signSecretKey c.signer).getD zeroSig
    { sth := { application := CTNG_APPLICATION, period := itoa periodNum, type := .STH_INIT, signer := c.signer,
               signers := [], sig := ⟨sig.toStr, []⟩, timestamp := t.rfc3339, cryptoScheme := go!"RSA",
               payload := ⟨c.signer, p1, []⟩ }
      root := tree.root
      pois := pois }

/-- Logger/server.go:112-129 `receive_pre_cert`: an unparsable body ends the process (`log.Fatalf` in
`Unmarshall_Signed_PreCert`, CA/ca.go:197-203): `none`. Nothing about issuer or signature is checked. -/
def loggerReceive (body : Str) (s : LoggerState) : Option LoggerState :=
  match X.parseCert body with
  | none => none
  | some cert =>
    match s.pool.addCert cert.parseTBS with
    | .ok p => some { s with pool := p }
    | .panic => none

/-- Logger/Types.go:72-90 `Verifyprecert` (never called): the issuer must be on the CA list and the signature over the TBS
part must verify under the issuer's key; `none` is the panic of verifying with a missing key. -/
def verifyPrecert (c : LoggerConf L) (cert : Cert) : Option Bool :=
  if cert.issuerCN ∈ c.caList then
    match rsaVerifyMsg cert.rawTBS ⟨cert.signature, cert.issuerCN⟩ (c.crypto.signPublicMap.get cert.issuerCN) with
    | .ok => some true
    | .err _ => some false
    | .panic => none
  else some false

/-- Logger/server.go:161-180 `Send_POIs_to_CAs`: stops at the first proof that does not verify; `none` is the nil
dereference of a certificate that is not in the pool. (A failed POST also dereferences nil, Logger/server.go:154-158; the
model assumes delivery.) -/
def sendPOIs (sha : Str → Str) (pool : CertPool) (root : Str) : List POI → Option (List (Str × POI))
  | [] => some []
  | p :: t =>
    if p.subjectKeyId.length ≠ 0 then
      match pool.getBySKI p.subjectKeyId with
      | .ok (some cert) =>
        if verifyPOI sha root p.poi cert then (sendPOIs sha pool root t).map ((p.issuer, p) :: ·) else some []
      | _ => none
    else sendPOIs sha pool root t

/-- The number and the key of the next period, Logger/server.go:212-222 (here the zero-padded string is kept). -/
def loggerNextNum (t : Instant) : Nat := (atoi (getCurrentPeriod t)).getD 0 + 1

def loggerNextPeriod (t : Instant) : Str :=
  if loggerNextNum t < 10 then go!"0" ++ itoa (loggerNextNum t) else itoa (loggerNextNum t)

/-- Logger/server.go:207-252 (`f1` of `PeriodicTask`). `none` is a panic, which ends the process (timer goroutine). -/
def loggerRound (c : LoggerConf L) (t : Instant) (s : LoggerState) : Option LoggerState :=
  let certs := s.pool.getCerts
  match buildMerkle X c t certs (loggerNextNum t) with
  | none => none
  | some b =>
    match certs with
    | [] => none
    | c0 :: _ =>
      match buildMerkle X c t (certs ++ [c0]) (loggerNextNum t) with
      | none => none
      | some f =>
        match sendPOIs L.sha256 s.pool b.root b.pois with
        | none => none
        | some sent =>
          some { s with onlinePeriod := s.onlinePeriod + 1
                        sthStorage := s.sthStorage.set (loggerNextPeriod t) b.sth
                        sthStorageFake := s.sthStorageFake.set (loggerNextPeriod t) f.sth
                        sentSTHs := s.sentSTHs ++ c.allCAs.map (fun ca => (ca, b.sth))
                        sentPOIs := s.sentPOIs ++ sent
                        onlineDuration := if s.requestCount > 0 then s.onlineDuration + 1 else s.onlineDuration
                        requestCount := 0
                        pool := CertPool.new }

/-- Logger/server.go:46-109 `requestSTH`: every type counts requests -/
def requestSTH (c : LoggerConf L) (t : Instant) (s : LoggerState) : Answer × LoggerState :=
  (decide6 c.loggerType (s.requestCount + 1) c.misbehaviorInterval s.onlineDuration
    (readObj s.sthStorage (getCurrentPeriod t)) (readObj s.sthStorageFake (getCurrentPeriod t)),
   { s with requestCount := s.requestCount + 1 })

inductive LoggerEvent where
  | precert (body : Str)
  | finish (t : Instant)
  | request (t : Instant)

def loggerStep (c : LoggerConf L) (s : LoggerState) : LoggerEvent → Option LoggerState
  | .precert b => loggerReceive X b s
  | .finish t => loggerRound X c t s
  | .request t => some (requestSTH c t s).2

def loggerRun (c : LoggerConf L) (s : LoggerState) : List LoggerEvent → Option LoggerState
  | [] => some s
  | e :: t =>
    match loggerStep X c s e with
    | none => none
    | some s' => loggerRun c s' t

end CTng
