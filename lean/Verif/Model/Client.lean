import Verif.Model.Monitor
/-
Model of client/client.go, client/types.go and client/parser.go: the databases of a client, updates and the check of a
certificate. Calls of `HandleUpdate` come one after the other; one that waits for a lock waits forever, because only
`HandleUpdate` itself takes and releases these locks.
-/
set_option autoImplicit false

namespace CTng

variable {L : Lib} (X : XLib)

/-- client/types.go:28-44: the databases and their locks -/
structure ClientState where
  /-- `STH_database`: entity@period to root hash -/
  sthDB : GoMap Str Str
  crvDB : GoMap Str BitSet
  pomDB : GoMap Str GossipObj
  crvLocked : Bool
  sthLocked : Bool
  pomLocked : Bool

/-- client/types.go:115-135 `InitializeClientContext` with `Status = "NEW"` -/
def initClient : ClientState := ⟨.empty, .empty, .empty, false, false, false⟩

/-- How a call of `HandleUpdate` ends: it returns true or false, it panics, or it waits for a lock. -/
inductive UpdRes where
  | accepted
  | rejected
  | panicked
  | blocked
  deriving DecidableEq, Repr

namespace Client

/-- client/client.go:133-139, 160-166, 184-190 and 196-202: verification of one object if it is switched on -/
def check (c : CryptoConfig L) (verify : Bool) (g : GossipObj) : VRes := if verify then g.verify c else .ok

/-- client/client.go:132-156: the loop over the revocations. The result of `Union` is discarded. -/
def handleRevs (c : CryptoConfig L) (verify : Bool) : List GossipObj → GoMap Str BitSet → UpdRes × GoMap Str BitSet
  | [], m => (.accepted, m)
  | rev :: t, m =>
    match check c verify rev with
    | .panic => (.panicked, m)
    | .err _ => (.rejected, m)
    | .ok =>
      let x := getSRHandDCRV X rev
      match verifySRH X c m x.1 x.2 rev.payload.p0 rev.period with
      | .panic => (.panicked, m)
      | .err _ => (.rejected, m)
      | .ok => handleRevs c verify t (if m.has rev.payload.p0 then m else m.set rev.payload.p0 x.2)

/-- client/client.go:177: the key of a tree head -/
def sthKey (g : GossipObj) : Str := g.payload.p0 ++ go!"@" ++ g.period

/-- client/client.go:169-171 and 229-231: the tree head inside an object. The error of hex.DecodeString is ignored. -/
def treeInfo (g : GossipObj) : Option STHData := X.decSTH (hexPrefix g.payload.p1)

/-- client/client.go:159-181: the loop over the tree heads -/
def handleSTHs (c : CryptoConfig L) (verify : Bool) : List GossipObj → GoMap Str Str → UpdRes × GoMap Str Str
  | [], m => (.accepted, m)
  | sth :: t, m =>
    match check c verify sth with
    | .panic => (.panicked, m)
    | .err _ => (.rejected, m)
    | .ok =>
      match treeInfo X sth with
      | none => (.rejected, m)
      | some d => handleSTHs c verify t (m.set (sthKey sth) d.rootHash)

/-- client/client.go:184-206: the loops over the proofs of misbehaviour -/
def handlePOMs (c : CryptoConfig L) (verify : Bool) : List GossipObj → GoMap Str GossipObj → UpdRes × GoMap Str GossipObj
  | [], m => (.accepted, m)
  | pom :: t, m =>
    match check c verify pom with
    | .panic => (.panicked, m)
    | .err _ => (.rejected, m)
    | .ok => handlePOMs c verify t (m.set pom.payload.p0 pom)

/-- client/client.go:130-208 `HandleUpdate` (its third argument is not used). A return in a loop leaves the lock taken. -/
def handleUpdate (c : CryptoConfig L) (verify : Bool) (u : ClientUpdate) (s : ClientState) : UpdRes × ClientState :=
  if s.crvLocked then (.blocked, s)
  else
    match handleRevs X c verify u.revs s.crvDB with
    | (.accepted, m) =>
      let s := { s with crvDB := m }
      if s.sthLocked then (.blocked, s)
      else
        match handleSTHs X c verify u.sths s.sthDB with
        | (.accepted, m) =>
          let s := { s with sthDB := m }
          if s.pomLocked then (.blocked, s)
          else
            match handlePOMs c verify (u.pomACCs ++ u.pomCONs) s.pomDB with
            | (.accepted, m) => (.accepted, { s with pomDB := m })
            | (r, m) => (r, { s with pomDB := m, pomLocked := true })
        | (r, m) => (r, { s with sthDB := m, sthLocked := true })
    | (r, m) => (r, { s with crvDB := m, crvLocked := true })

/-- A history of updates: the results and the final state. (A panic ends the process; what follows it here is the history
of a program that recovers from it.) -/
def runUpdates (c : CryptoConfig L) (verify : Bool) : List ClientUpdate → ClientState → List UpdRes × ClientState
  | [], s => ([], s)
  | u :: t, s =>
    let x := handleUpdate X c verify u s
    let y := runUpdates c verify t x.2
    (x.1 :: y.1, y.2)

/-- What `VerifyCTngextension` does: true, false, or a panic. -/
inductive CertRes where
  | accept
  | reject
  | panic
  deriving DecidableEq, Repr

/-- client/client.go:219-254: one entry of the extension; `some true` counts as faulty, `none` is a panic -/
def entryFaulty (c : CryptoConfig L) (s : ClientState) (cert : Cert) (e : LoggerInfo) : Option Bool :=
  if s.pomDB.has e.sth.signer then some true
  else
    match e.sth.verify c with
    | .panic => none
    | .err _ => some true
    | .ok =>
      match treeInfo X e.sth with
      | none => some true
      | some d =>
        let roothash := (s.sthDB.get (sthKey e.sth)).getD []
        if roothash ≠ d.rootHash then some true
        else some (!verifyPOI L.sha256 (hexPrefix roothash) e.poi.poi cert.parseTBS)

/-- client/client.go:218-255: the number of faulty entries -/
def countFaulty (c : CryptoConfig L) (s : ClientState) (cert : Cert) : List LoggerInfo → Option Nat
  | [] => some 0
  | e :: t =>
    match entryFaulty X c s cert e with
    | none => none
    | some b => (countFaulty c s cert t).map fun n => if b then n + 1 else n

/-- client/client.go:210-273 `VerifyCTngextension`. `Test` of a nil pointer panics. It takes no locks and changes nothing. -/
def verifyCTngExt (c : CryptoConfig L) (s : ClientState) (cert : Cert) : CertRes :=
  let ext := cert.parseExt X
  match countFaulty X c s cert ext.loggers with
  | none => .panic
  | some n =>
    if n = ext.loggers.length then .reject
    else
      match s.crvDB.get cert.issuerCN with
      | none => .panic
      | some v => if v.test (cert.rid X) then .reject else .accept

/-- The JSON files of client/types.go:46-113: json.Marshal and json.Unmarshal (`none` is an error) of the maps. -/
structure DiskLib where
  /-- map[string]string -/
  encStr : GoMap Str Str → Str
  decStr : Str → Option (GoMap Str Str)
  /-- map[string][]byte -/
  encBytes : GoMap Str Str → Str
  decBytes : Str → Option (GoMap Str Str)
  /-- map[string]Gossip_object -/
  encObj : GoMap Str GossipObj → Str

/-- The three files; `none` is a file that cannot be read. -/
structure ClientFiles where
  sth : Option Str
  crv : Option Str
  pom : Option Str

/-- Rewriting the values of a map. -/
def mapVals {K V W : Type} (f : V → W) (m : GoMap K V) : GoMap K W :=
  ⟨m.entries.map fun e => (e.1, f e.2), by
    have h : (m.entries.map fun e => (e.1, f e.2)).map Prod.fst = m.entries.map Prod.fst := by simp [List.map_map, Function.comp_def]
    rw [h]; exact m.nodup⟩

/-- client/types.go:46-59 `SaveSTHDatabase`, `SaveCRVDatabase`, `SavePomDatabase` -/
def save (D : DiskLib) (s : ClientState) : ClientFiles :=
  ⟨some (D.encStr s.sthDB), some (D.encBytes (mapVals X.marshal s.crvDB)), some (D.encObj s.pomDB)⟩

/-- client/types.go:61-89 and 115-135: `InitializeClientContext` of a client whose `Status` is not "NEW". The error of the
first json.Unmarshal is dropped; the second ends the process (`none`). `LoadPoMdatabase` is not called. (A file of tree heads that
is broken counts as empty here; encoding/json would keep the entries before a value of the wrong type, and the text `null` would
leave a nil map, into which the next accepted tree head cannot be written.) -/
def restart (D : DiskLib) (f : ClientFiles) : Option ClientState :=
  let sth := match f.sth with
    | none => GoMap.empty
    | some b => (D.decStr b).getD .empty
  match f.crv with
  | none => some { initClient with sthDB := sth }
  | some b =>
    match D.decBytes b with
    | none => none
    | some m => some { initClient with sthDB := sth, crvDB := mapVals (fun v => (X.unmarshal v).getD ⟨0, 0⟩) m }

end Client
end CTng
