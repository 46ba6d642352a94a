import Verif.Model.CA
import Verif.Model.Gossiper
/-
Model of monitor/monitor.go, monitor/types.go and monitor/client-update-monitor.go. Every handler, query goroutine and
timer function is one atomic step (the data races of the code on its unlocked maps are not modelled).
-/
set_option autoImplicit false

namespace CTng

/-- The bytes hex.DecodeString returns, also on an error: what was decoded before the first bad pair. -/
def hexPrefix : Str → Str
  | a :: b :: t =>
    match fromHexDigit a, fromHexDigit b with
    | some x, some y => (x * 16 + y) :: hexPrefix t
    | _, _ => []
  | _ => []

/-- The buffer hex.Decode leaves in a zeroed destination of half the length. -/
def hexBuffer (s : Str) : Str := hexPrefix s ++ List.replicate (s.length / 2 - (hexPrefix s).length) 0

/-- Parsing of a decimal period that may lie before the offset: strconv.Itoa of an integer -/
def itoaInt (n : Int) : Str := if n < 0 then go!"-" ++ itoa n.natAbs else itoa n.natAbs

section
variable (L : Lib)

/-- The value crypto/types.go:106-120 `RSASigFromString` returns, also together with an error. -/
def RSASig.value (str : Str) : RSASig :=
  match L.jsonStrMap str with
  | none => zeroSig
  | some m =>
    match hexDecode ((m.get (go!"sig")).getD []) with
    | none => ⟨hexBuffer ((m.get (go!"sig")).getD []), []⟩
    | some b => ⟨b, (m.get (go!"id")).getD []⟩
end

variable {L : Lib} (X : XLib)

/-- monitor/types.go:363-378 and client/parser.go:13-29 `Get_SRH_and_DCRV`. A delta that cannot be decoded leaves the
zero bit set. -/
def getSRHandDCRV (rev : GossipObj) : Str × BitSet :=
  let r := X.decRev rev.payload.p2
  (r.srh, (X.unmarshal (X.decompress r.deltaCRV)).getD ⟨0, 0⟩)

/-- monitor/monitor.go:493-521 and client/client.go:101-128 `VerifySRH` (the two are the same): `crv` is the map of known
vectors. A failed decoding of the SRH is only printed. -/
def verifySRH (c : CryptoConfig L) (crv : GoMap Str BitSet) (srh : Str) (d : BitSet) (ca period : Str) : VRes :=
  let old := (crv.get ca).getD d
  let localhash := L.sha256 (period ++ L.sha256 (X.marshal old) ++ L.sha256 (X.marshal d))
  let sig := RSASig.value L srh
  rsaVerifyMsg localhash sig (c.signPublicMap.get sig.id)

abbrev GStore := GoMap GossipID GossipObj

/-- monitor/client-update-monitor.go:18-27 `ClientUpdate` -/
structure ClientUpdate where
  sths : List GossipObj
  revs : List GossipObj
  pomCONs : List GossipObj
  pomACCs : List GossipObj
  monitorID : Str
  period : Str
  deriving DecidableEq, Repr

/-- monitor/types.go:58-73 and the constant parts of the context (19-56) -/
structure MonConf (L : Lib) where
  crypto : CryptoConfig L
  caURLs : List Str
  loggerURLs : List Str
  allCAs : List Str
  allLoggers : List Str
  /-- `Period_Offset` -/
  periodOffset : Str

/-- The second argument of `Wait_then_accuse`. -/
inductive EntityKind where
  | logger
  | ca
  deriving DecidableEq, Repr

/-- monitor/types.go:19-56: the changing part of the context. In addition `sent` lists what was posted to the gossiper,
`queries` the query goroutines under way, `waits` the armed `Wait_then_accuse` timers, `crvTimers` the armed 20 second
timers of `StoreObject`, `files` the `ClientUpdate.json` written per period directory and `crvFile` the CRV file. -/
structure MonState where
  temp : GStore
  conflictPom : GStore
  accusationPom : GStore
  conflictDelta : GStore
  accusationDelta : GStore
  sthFull : GStore
  revFull : GStore
  crv : GoMap Str BitSet
  sent : List GossipObj
  queries : List (Str × EntityKind)
  waits : List (Str × EntityKind)
  crvTimers : List (Str × BitSet)
  files : GoMap Str ClientUpdate
  crvFile : List (Str × Str)

/-- monitor/types.go:312-361 `InitializeMonitorContext` -/
def initMonitor : MonState :=
  { temp := .empty, conflictPom := .empty, accusationPom := .empty, conflictDelta := .empty, accusationDelta := .empty,
    sthFull := .empty, revFull := .empty, crv := .empty, sent := [], queries := [], waits := [], crvTimers := [],
    files := .empty, crvFile := [] }

namespace Mon

/-- monitor/types.go:75-87 `GetObjectNumber` -/
def getObjectNumber (s : MonState) : GType → Nat
  | .CON_INIT => s.conflictPom.len
  | .ACC_FULL => s.accusationPom.len
  | .STH_FULL => s.sthFull.len
  | .REV_FULL => s.revFull.len
  | _ => 0

/-- monitor/types.go:165-201 `GetObject`: a missing object reads as the zero object -/
def getObject (s : MonState) (id : GossipID) : GossipObj :=
  match id.type with
  | .CON_INIT => (s.conflictPom.get id).getD .zero
  | .ACC_FULL => (s.accusationPom.get id).getD .zero
  | .STH_FULL => (s.sthFull.get id).getD .zero
  | .REV_FULL => (s.revFull.get id).getD .zero
  | .STH_INIT => (s.temp.get id).getD .zero
  | .REV_INIT => (s.temp.get id).getD .zero
  | _ => .zero

/-- monitor/types.go:202-207 `IsDuplicate`. (reflect.DeepEqual also tells a nil `Signers` from an empty one; the model
does not.) -/
def isDuplicate (s : MonState) (g : GossipObj) : Bool := getObject s g.getID = g

/-- monitor/types.go:209-268 `StoreObject` -/
def storeObject (s : MonState) (o : GossipObj) : MonState :=
  match o.type with
  | .STH_INIT => { s with temp := s.temp.set o.getID o }
  | .REV_INIT => { s with temp := s.temp.set o.getID o }
  | .CON_INIT => { s with conflictPom := s.conflictPom.set o.getID o, conflictDelta := s.conflictDelta.set o.getID o }
  | .ACC_FULL => { s with accusationPom := s.accusationPom.set o.getID o, accusationDelta := s.accusationDelta.set o.getID o }
  | .STH_FULL => { s with sthFull := s.sthFull.set o.getID o }
  | .REV_FULL => { s with revFull := s.revFull.set o.getID o
                          crvTimers := s.crvTimers ++ [(o.payload.p0, (getSRHandDCRV X o).2)] }
  | _ => { s with temp := s.temp.set o.getID o }

/-- monitor/types.go:251-261: the function armed by `StoreObject` for a revocation. The result of `Union` is discarded. -/
def fireCRV (s : MonState) (key : Str) (d : BitSet) : MonState :=
  if s.crv.has key then s else { s with crv := s.crv.set key d }

/-- monitor/monitor.go:373-393 `Check_entity_pom` at clock `clk` -/
def checkEntityPom (s : MonState) (clk : Clock) (e : Str) : Bool :=
  s.accusationPom.has ⟨clk.period, .ACC_FULL, e⟩ || s.conflictPom.has ⟨go!"0", .CON_INIT, e⟩

/-- monitor/monitor.go:395-402 `IsLogger` -/
def isLogger (c : MonConf L) (u : Str) : Bool := c.allLoggers.any (· = u)

/-- monitor/monitor.go:404-411 `IsAuthority` -/
def isAuthority (c : MonConf L) (u : Str) : Bool := c.allCAs.any (· = u)

/-- monitor/monitor.go:343-369 `Send_to_gossiper`: the object is posted -/
def send (s : MonState) (g : GossipObj) : MonState := { s with sent := s.sent ++ [g] }

/-- monitor/monitor.go:474-491 `Process_valid_object` -/
def processValid (c : MonConf L) (s : MonState) (g : GossipObj) : MonState :=
  let s := if g.type = .STH_INIT ∧ isLogger c g.signer then send s g else s
  let s := if g.type = .REV_INIT ∧ isAuthority c g.signer then send s g else s
  if g.type = .ACC_FULL ∨ g.type = .CON_INIT ∨ g.type = .STH_FULL ∨ g.type = .REV_FULL then storeObject X s g else s

/-- monitor/monitor.go:43-65 `handle_gossip_from_gossiper`; `none` is a body that is no JSON text: the handler answers
with an error and goes on with the zero object. (A body that decodes partly is the part that was decoded, see
Model/WireMonitor.lean.) -/
def handleGossip (c : MonConf L) (s : MonState) (body : Option GossipObj) : MonState :=
  let g := body.getD .zero
  if isDuplicate s g then s
  else
    match g.type with
    | .STH_INIT => storeObject X s g
    | .REV_INIT => storeObject X s g
    | _ => processValid X c s g

/-- monitor/monitor.go:293-310: the accusation built by `AccuseEntity` -/
def accusation (c : MonConf L) (clk : Clock) (e : Str) : GossipObj :=
  { application := CTNG_APPLICATION, period := clk.period, type := .ACC_INIT, signer := c.crypto.selfID, signers := [],
    sig := ⟨((c.crypto.sign (e ++ [] ++ [])).getD zeroSig).toStr, []⟩, timestamp := clk.timestamp,
    cryptoScheme := go!"RSA", payload := ⟨e, [], []⟩ }

/-- monitor/monitor.go:289-314 `AccuseEntity` -/
def accuseEntity (c : MonConf L) (clk : Clock) (s : MonState) (e : Str) : MonState :=
  if checkEntityPom s clk e then s else send s (accusation c clk e)

/-- monitor/monitor.go:316-340, the timer function of `Wait_then_accuse` -/
def waitOver (c : MonConf L) (clk : Clock) (s : MonState) (e : Str) (k : EntityKind) : MonState :=
  let ok := match k with
    | .logger => s.temp.has ⟨clk.period, .STH_INIT, e⟩
    | .ca => s.temp.has ⟨clk.period, .REV_INIT, e⟩
  if checkEntityPom s clk e = false ∧ ok = false then accuseEntity c clk s e else s

/-- monitor/monitor.go:134-140 and 230-236: the loops of `QueryLoggers` and `QueryAuthorities` start one goroutine per
entity without a proof on file -/
def startQueries (c : MonConf L) (clk : Clock) (s : MonState) : MonState :=
  { s with queries := s.queries ++
      (c.loggerURLs.filter fun u => checkEntityPom s clk u = false).map (·, EntityKind.logger) ++
      (c.caURLs.filter fun u => checkEntityPom s clk u = false).map (·, EntityKind.ca) }

/-- What a query goroutine gets: nothing usable (connection refused, unreadable or undecodable body) or an object. -/
inductive Fetched where
  | failed
  | obj (g : GossipObj)
  deriving DecidableEq, Repr

/-- monitor/monitor.go:144-169 (loggers) and 239-281 (CAs): the rest of the query goroutine. A panic in it (verification
under a missing key) ends the process: `none`. -/
def answerQuery (c : MonConf L) (s : MonState) (u : Str) (k : EntityKind) (f : Fetched) : Option MonState :=
  let wait := { s with waits := s.waits ++ [(u, k)] }
  match f with
  | .failed => some wait
  | .obj g =>
    match g.verify c.crypto with
    | .panic => none
    | .err _ => some wait
    | .ok =>
      match k with
      | .logger => some (processValid X c s g)
      | .ca =>
        match verifySRH X c.crypto s.crv (getSRHandDCRV X g).1 (getSRHandDCRV X g).2 g.payload.p0 g.period with
        | .panic => none
        | .err _ => some wait
        | .ok => some (processValid X c s g)

/-- monitor/types.go:88-112 `Clean_Conflicting_Object` -/
def cleanConflicting (s : MonState) : MonState :=
  let keep := fun (k : GossipID) (_ : GossipObj) => !s.conflictPom.has ⟨go!"0", .CON_INIT, k.entity⟩
  { s with sthFull := s.sthFull.filterKV keep, revFull := s.revFull.filterKV keep }

/-- monitor/types.go:271-297 `WipeStorage` at clock `clk` -/
def wipeStorage (clk : Clock) (s : MonState) : MonState :=
  let keep := fun (k : GossipID) (_ : GossipObj) => k.period = clk.period
  { s with temp := .empty, sthFull := s.sthFull.filterKV (fun k v => keep k v), revFull := s.revFull.filterKV (fun k v => keep k v)
           conflictDelta := s.conflictDelta.filterKV (fun k v => keep k v)
           accusationDelta := s.accusationDelta.filterKV (fun k v => keep k v) }

/-- monitor/monitor.go:413-439 `GenerateUpdate` at clock `clk` (the order of the lists is the map iteration order) -/
def generateUpdate (c : MonConf L) (clk : Clock) (s : MonState) : ClientUpdate :=
  { sths := s.sthFull.values, revs := s.revFull.values, pomCONs := s.conflictDelta.values,
    pomACCs := s.accusationDelta.values, monitorID := c.crypto.selfID, period := clk.period }

/-- monitor/monitor.go:464-466: the number in the directory name. (`Period_Offset` is set from `GetCurrentPeriod` by
the test programs: two digits. A text with a sign or beyond the range of `int`, which strconv.Atoi would treat
differently from `atoi`, is left out.) -/
def periodIO (c : MonConf L) (clk : Clock) : Str :=
  itoaInt (((atoi clk.period).getD 0 : Int) - ((atoi c.periodOffset).getD 0 : Int))

/-- monitor/types.go:114-132 `SaveStorage` -/
def saveStorage (s : MonState) (period : Str) (u : ClientUpdate) : MonState :=
  { s with files := s.files.set period u, crvFile := s.crv.entries.map fun e => (e.1, X.compress (X.marshal e.2)) }

/-- monitor/monitor.go:460-468, the function `PeriodicTasks` runs 20 seconds before the end of the period -/
def endPeriod (c : MonConf L) (clk : Clock) (s : MonState) : MonState :=
  let s := wipeStorage clk (cleanConflicting s)
  saveStorage X s (periodIO c clk) (generateUpdate c clk s)

/-- monitor/types.go:134-163 `LoadOneStorage` on a decoded list: the state, and whether the error is nil (never). -/
def loadOneStorage (s : MonState) (name : GType) (l : List GossipObj) : MonState × Bool :=
  (match name with
   | .CON_INIT => { s with conflictPom := l.foldl (fun m o => m.set o.getID o) s.conflictPom }
   | .ACC_FULL => { s with accusationPom := l.foldl (fun m o => m.set o.getID o) s.accusationPom }
   | .STH_FULL => { s with sthFull := l.foldl (fun m o => m.set o.getID o) s.sthFull }
   | .REV_FULL => { s with revFull := l.foldl (fun m o => m.set o.getID o) s.revFull }
   | _ => s, false)

end Mon

open Mon

/-- Events of a monitor. -/
inductive MonEvent where
  /-- a POST of the gossiper -/
  | gossip (body : Option GossipObj)
  /-- the start of a period -/
  | query (clk : Clock)
  /-- the `i`-th query under way gets its answer -/
  | answer (i : Nat) (f : Fetched)
  /-- the `i`-th `Wait_then_accuse` timer fires -/
  | wait (i : Nat) (clk : Clock)
  /-- the `i`-th revocation timer fires -/
  | crv (i : Nat)
  /-- the end of the period -/
  | finish (clk : Clock)

/-- One event. `none` is the end of the process by a panic. An index that names no timer is no event. -/
def monStep (c : MonConf L) (s : MonState) : MonEvent → Option MonState
  | .gossip b => some (handleGossip X c s b)
  | .query clk => some (startQueries c clk s)
  | .answer i f =>
    match s.queries[i]? with
    | none => some s
    | some (u, k) => answerQuery X c { s with queries := s.queries.eraseIdx i } u k f
  | .wait i clk =>
    match s.waits[i]? with
    | none => some s
    | some (u, k) => some (waitOver c clk { s with waits := s.waits.eraseIdx i } u k)
  | .crv i =>
    match s.crvTimers[i]? with
    | none => some s
    | some (k, d) => some (fireCRV { s with crvTimers := s.crvTimers.eraseIdx i } k d)
  | .finish clk => some (endPeriod X c clk s)

def monRun (c : MonConf L) (s : MonState) : List MonEvent → Option MonState
  | [] => some s
  | e :: t =>
    match monStep X c s e with
    | none => none
    | some s' => monRun c s' t

end CTng
