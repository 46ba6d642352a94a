import Verif.Model.Verify
/-
Model of the gossiper: gossiper/types.go, Init.go, Interface.go, gen.go and gossiper_server.go.

Sequential semantics: every handler is a function from state to state and runs to completion. Goroutine interleavings
are modelled in `Model/GossiperConc.lean` on top of the same building blocks.
-/
set_option autoImplicit false

namespace CTng

/-- The readings of the wall clock a handler sees: util.GetCurrentPeriod, GetCurrentSecond, GetCurrentTimestamp
(util/helpers.go:103-119). -/
structure Clock where
  period : Str
  second : Str
  timestamp : Str
  deriving DecidableEq, Repr

/-- gossiper/types.go:108-114 `Gossip_Notification` -/
structure Notification where
  sender : Str
  period : Str
  type : GType
  entity : Str
  objhash : Str
  deriving DecidableEq, Repr

/-- The parts of the gossiper context that no handler changes (gossiper/types.go:58-86): crypto configuration,
connected peers, owner, optimisation switches and expected totals. `jsonLen`/`notifLen` are the lengths of the JSON
encodings (`len(json.Marshal(..))`), arbitrary functions here. -/
structure GConf (L : Lib) where
  crypto : CryptoConfig L
  connected : List Str
  ownerURL : Str
  optThreshold : Int
  optMode : Bool
  totalLogger : Int
  totalCA : Int
  jsonLen : GossipObj → Nat
  notifLen : Notification → Nat

/-- gossiper/types.go:27-51 `Gossip_object_storage`, without the locks. -/
structure Storage where
  sthInit : GoMap GossipID GossipObj
  revInit : GoMap GossipID GossipObj
  accInit : GoMap GossipID GossipObj
  conInit : GoMap GossipID GossipObj
  sthFrag : GoMap GossipID (List GossipObj)
  revFrag : GoMap GossipID (List GossipObj)
  accFrag : GoMap GossipID (List GossipObj)
  sthFull : GoMap GossipID GossipObj
  revFull : GoMap GossipID GossipObj
  accFull : GoMap GossipID GossipObj
  revPayload : GoMap GossipID GossipObj
  deriving DecidableEq

/-- gossiper/Init.go:12-37 `InitializeGossipObjectStorage` -/
def Storage.init : Storage :=
  ⟨.empty, .empty, .empty, .empty, .empty, .empty, .empty, .empty, .empty, .empty, .empty⟩

/-- The map of single objects a `switch` on the type selects (gossiper/Interface.go:134-223, 258-322, 326-410,
456-525, 530-559); fragment types and unknown types select none of these, read as the empty map. -/
def Storage.objs (s : Storage) : GType → GoMap GossipID GossipObj
  | .STH_INIT => s.sthInit
  | .REV_INIT => s.revInit
  | .ACC_INIT => s.accInit
  | .CON_INIT => s.conInit
  | .STH_FULL => s.sthFull
  | .REV_FULL => s.revFull
  | .ACC_FULL => s.accFull
  | _ => .empty

/-- Write to the map selected by the type. -/
def Storage.putObj (s : Storage) (t : GType) (k : GossipID) (o : GossipObj) : Storage :=
  match t with
  | .STH_INIT => { s with sthInit := s.sthInit.set k o }
  | .REV_INIT => { s with revInit := s.revInit.set k o }
  | .ACC_INIT => { s with accInit := s.accInit.set k o }
  | .CON_INIT => { s with conInit := s.conInit.set k o }
  | .STH_FULL => { s with sthFull := s.sthFull.set k o }
  | .REV_FULL => { s with revFull := s.revFull.set k o }
  | .ACC_FULL => { s with accFull := s.accFull.set k o }
  | _ => s

/-- The fragment map a `switch` on the type selects; other types select none, read as the empty map. -/
def Storage.frags (s : Storage) : GType → GoMap GossipID (List GossipObj)
  | .STH_FRAG => s.sthFrag
  | .REV_FRAG => s.revFrag
  | .ACC_FRAG => s.accFrag
  | _ => .empty

/-- Fragment list at a key; a missing key reads as the nil slice. -/
def Storage.fragList (s : Storage) (t : GType) (k : GossipID) : List GossipObj := ((s.frags t).get k).getD []

/-- `M[k] = append(M[k], o)` on the fragment map selected by the type. -/
def Storage.appendFrag (s : Storage) (t : GType) (k : GossipID) (o : GossipObj) : Storage :=
  match t with
  | .STH_FRAG => { s with sthFrag := s.sthFrag.set k (s.fragList .STH_FRAG k ++ [o]) }
  | .REV_FRAG => { s with revFrag := s.revFrag.set k (s.fragList .REV_FRAG k ++ [o]) }
  | .ACC_FRAG => { s with accFrag := s.accFrag.set k (s.fragList .ACC_FRAG k ++ [o]) }
  | _ => s

/-- Body of an HTTP POST to another gossiper. -/
inductive Body where
  | obj (o : GossipObj)
  | notif (n : Notification)
  deriving DecidableEq, Repr

/-- Observable effects, in the order they are started. `signed` and `generatedFull` record a call of ThresholdSign on a
statement and the console line "Generated full object" (gossiper_server.go:356). -/
inductive Out where
  | peer (url endpoint : Str) (body : Body)
  | owner (o : GossipObj)
  | signed (o : GossipObj)
  | generatedFull (id : GossipID) (o : GossipObj)
  deriving DecidableEq, Repr

/-- gossiper/types.go:88-106 `Gossiper_log_entry` (period kept as the period string). -/
structure LogEntry where
  period : Str
  convergeTime : Str
  convergeTimeInit : Str
  trafficReceived : Int
  trafficSent : Int
  numSthInit : Nat
  numRevInit : Nat
  numAccInit : Nat
  numConInit : Nat
  numSthFrag : Nat
  numRevFrag : Nat
  numAccFrag : Nat
  numSthFull : Nat
  numRevFull : Nat
  numAccFull : Nat
  numBlacklist : Nat
  timerlist : List Str
  deriving DecidableEq, Repr

/-- The mutable part of `GossiperContext` (gossiper/types.go:58-86), plus the armed signing timers (each remembers
the INIT object its closure captured, gossiper_server.go:242-249, 283-290) and the output trace. `crashed` is set when a
panic escapes on a timer goroutine, which ends the process; net/http recovers panics of request handlers. -/
structure GState where
  storage : Storage
  blacklist : GoMap Str Bool
  log : GoMap Str LogEntry
  convergeTime : Str
  convergeTimeInit : Str
  trafficSent : Int
  trafficReceived : Int
  timerlist : List Str
  timers : List GossipObj
  out : List Out
  crashed : Bool
  deriving DecidableEq

/-- gossiper/Init.go:51-79 `InitializeGossiperContext` -/
def GState.init : GState :=
  { storage := .init, blacklist := .empty, log := .empty, convergeTime := [], convergeTimeInit := [],
    trafficSent := 0, trafficReceived := 0, timerlist := [], timers := [], out := [], crashed := false }

/-- Append to the output trace. -/
def GState.emit (s : GState) (o : List Out) : GState := { s with out := s.out ++ o }

section
variable {L : Lib}

/-- gossiper/Interface.go:118-123, 432-434 `InBlacklistPerm` / `InBlacklist` -/
def inBlacklist (s : GState) (id : Str) : Bool := s.blacklist.has id

/-- gossiper/Interface.go:183-188 and 217-222: add to the permanent blacklist if absent -/
def addBlacklist (s : GState) (id : Str) : GState :=
  if inBlacklist s id then s else { s with blacklist := s.blacklist.set id true }

/-- gossiper/Interface.go:257-324 `DupCheckInLock` and 325-412 `IsDuplicate_G` (the same decision, the second takes the
read lock): same signature pair already stored under the object's id. -/
def dupCheck (s : GState) (g : GossipObj) : Bool :=
  match g.type with
  | .STH_INIT | .REV_INIT | .ACC_INIT | .CON_INIT | .STH_FULL | .REV_FULL | .ACC_FULL =>
    match (s.storage.objs g.type).get g.getID with
    | none => false
    | some o => o.sig = g.sig
  | .STH_FRAG | .REV_FRAG | .ACC_FRAG => (s.storage.fragList g.type g.getID).any fun v => v.sig = g.sig
  | .other _ => false

/-- gossiper/Interface.go:455-527 `GetGossipObjectCount`, 563-569 `GetItemCount` -/
def itemCount (s : GState) (id : GossipID) (t : GType) : Nat :=
  match t with
  | .STH_FRAG | .REV_FRAG | .ACC_FRAG => (s.storage.fragList t id).length
  | .other _ => 0
  | t => if (s.storage.objs t).has id then 1 else 0

/-- gossiper/Interface.go:529-561 `GetObject`: a missing key gives the zero object -/
def getObject (s : GState) (id : GossipID) (t : GType) : GossipObj := ((s.storage.objs t).get id).getD .zero

/-- gossiper/Interface.go:436-453 `GetObjectList` -/
def getObjectList (s : GState) (id : GossipID) (t : GType) : List GossipObj := s.storage.fragList t id

/-- gossiper/Interface.go:597-611 `IsInitConvergent` -/
def isInitConvergent (cf : GConf L) (s : GState) : Bool :=
  (s.storage.revInit.len + s.storage.sthInit.len + s.storage.accInit.len : Int) = cf.totalLogger + cf.totalCA

/-- gossiper/Interface.go:580-595 `IsConvergent` -/
def isConvergent (cf : GConf L) (s : GState) : Bool :=
  (s.storage.revFull.len + s.storage.sthFull.len + s.storage.accFull.len + s.storage.conInit.len : Int)
    = cf.totalLogger + cf.totalCA

/-- gossiper/Interface.go:144-147, 157-160, 170-173, 189-192 -/
def noteInitConverge (cf : GConf L) (clk : Clock) (s : GState) : GState :=
  if isInitConvergent cf s then { s with convergeTimeInit := clk.second } else s

/-- gossiper/gossiper_server.go:374-377 -/
def noteConverge (cf : GConf L) (clk : Clock) (s : GState) : GState :=
  if isConvergent cf s then { s with convergeTime := clk.second } else s

/-- Result of `Store`: stored, refused (false), or the verification panicked. -/
inductive StoreRes where
  | stored
  | refused
  | panic
  deriving DecidableEq, Repr

/-- gossiper/Interface.go:134-182, 193-216: the critical section of `Store_gossip_object` for an object that verified.
`false` means the in-lock duplicate check refused it. (Store is only called on fragments by no handler; modelled for
completeness.) -/
def storeLocked (s : GState) (g : GossipObj) : GState × Bool :=
  match g.type with
  | .STH_INIT | .REV_INIT | .ACC_INIT | .CON_INIT =>
    if dupCheck s g then (s, false)
    else ({ s with storage := s.storage.putObj g.type g.getID g }, true)
  | .STH_FRAG | .REV_FRAG | .ACC_FRAG => ({ s with storage := s.storage.appendFrag g.type g.getID g }, true)
  | .STH_FULL | .REV_FULL | .ACC_FULL => ({ s with storage := s.storage.putObj g.type g.getID g }, true)
  | .other _ => (s, true)

/-- gossiper/Interface.go:183-188, 217-222: what follows the critical section, for conflict proofs and full accusations -/
def storeBlacklist (s : GState) (g : GossipObj) : GState :=
  match g.type with
  | .CON_INIT | .ACC_FULL => addBlacklist s g.payload.p0
  | _ => s

/-- gossiper/Interface.go:144-147, 157-160, 170-173, 189-192: convergence note after INIT stores -/
def storeNote (cf : GConf L) (clk : Clock) (s : GState) (g : GossipObj) : GState :=
  match g.type with
  | .STH_INIT | .REV_INIT | .ACC_INIT | .CON_INIT => noteInitConverge cf clk s
  | _ => s

/-- gossiper/Interface.go:125-225 `Store_gossip_object` (and 414-421 `Store`). The Timerlist entry is kept as the
seconds string instead of its float value. -/
def storeGossipObject (cf : GConf L) (clk : Clock) (s : GState) (g : GossipObj) : GState × StoreRes :=
  match g.verify cf.crypto with
  | .panic => (s, .panic)
  | .err _ => (s, .refused)
  | .ok =>
    let s := { s with timerlist := s.timerlist ++ [clk.second] }
    match storeLocked s g with
    | (s, false) => (s, .refused)
    | (s, true) => (storeNote cf clk (storeBlacklist s g) g, .stored)

/-- gossiper/Interface.go:227-256 `Read_and_Store_If_Needed`: number of fragments held before, and append if below the
threshold. No verification takes place. -/
def readAndStore (cf : GConf L) (s : GState) (g : GossipObj) : GState × Nat :=
  match g.type with
  | .STH_FRAG | .REV_FRAG | .ACC_FRAG =>
    let before := (s.storage.fragList g.type g.getID).length
    if (before : Int) < cf.crypto.threshold then
      ({ s with storage := s.storage.appendFrag g.type g.getID g }, before)
    else (s, before)
  | _ => (s, 0)

/-- gossiper/Interface.go:613-627 `IsMalicious` -/
def isMalicious (s : GState) (g : GossipObj) : Bool :=
  match g.type with
  | .STH_INIT =>
    let o := getObject s g.getID .STH_INIT
    decide (g.signer = o.signer) && decide (g.sig ≠ o.sig)
  | .REV_INIT =>
    let o := getObject s g.getID .REV_INIT
    decide (g.signer = o.signer) && decide (g.sig ≠ o.sig)
  | _ => false

/-- gossiper/Interface.go:629-639 `WipeStorage` -/
def wipeStorage (s : GState) : GState :=
  { s with storage := { Storage.init with conInit := s.storage.conInit }, blacklist := s.blacklist }

/-- gossiper/Interface.go:30-34 `ComputeobjHash` -/
def computeObjHash (L : Lib) (o : GossipObj) : Str :=
  L.sha256 (o.sig.s0 ++ o.signer ++ o.period ++ o.type.toStr ++ o.payload.p0 ++ o.payload.p1 ++ o.payload.p2)

/-- gossiper/Interface.go:43-52 `SavePayload`; `false` is a panic of the verification -/
def savePayload (cf : GConf L) (s : GState) (g : GossipObj) : GState × Bool :=
  match g.verify cf.crypto with
  | .panic => (s, false)
  | .err _ => (s, true)
  | .ok => ({ s with storage := { s.storage with revPayload := s.storage.revPayload.set g.getID g } }, true)

/-- gossiper/Interface.go:54-68 `SearchPayload` -/
def searchPayload (L : Lib) (s : GState) (id : GossipID) (h : Str) : Bool :=
  match s.storage.revPayload.get { id with type := .REV_INIT } with
  | none => false
  | some o => computeObjHash L o = h

/-- gossiper/Interface.go:70-78 `GetREVrequested` -/
def getREVrequested (s : GState) (id : GossipID) : GossipObj :=
  (s.storage.revPayload.get { id with type := .REV_INIT }).getD .zero

/-- gossiper/Interface.go:35-41 `countFragments` -/
def countFragments (m : GoMap GossipID (List GossipObj)) : Nat := (m.values.map List.length).sum

/-- gossiper/Interface.go:82-103: the log entry -/
def logEntry (clk : Clock) (s : GState) : LogEntry :=
  { period := clk.period, convergeTime := s.convergeTime, convergeTimeInit := s.convergeTimeInit,
    trafficReceived := s.trafficReceived, trafficSent := s.trafficSent,
    numSthInit := s.storage.sthInit.len, numRevInit := s.storage.revInit.len, numAccInit := s.storage.accInit.len,
    numConInit := s.storage.conInit.len,
    numSthFrag := countFragments s.storage.sthFrag, numRevFrag := countFragments s.storage.revFrag,
    numAccFrag := countFragments s.storage.accFrag,
    numSthFull := s.storage.sthFull.len, numRevFull := s.storage.revFull.len, numAccFull := s.storage.accFull.len,
    numBlacklist := s.blacklist.len, timerlist := s.timerlist }

/-- gossiper/Interface.go:80-116 `Save`, without the file write (see Model/Saves.lean); the log is keyed by the period string instead of its
integer value -/
def save (clk : Clock) (s : GState) : GState :=
  let e := logEntry clk s
  if e.numSthInit ≠ 0 ∨ e.numRevInit ≠ 0 ∨ e.numAccInit ≠ 0 ∨ e.numConInit ≠ 0 ∨
     e.numSthFrag ≠ 0 ∨ e.numRevFrag ≠ 0 ∨ e.numAccFrag ≠ 0 ∨
     e.numSthFull ≠ 0 ∨ e.numRevFull ≠ 0 ∨ e.numAccFull ≠ 0 ∨ e.numBlacklist ≠ 0
  then { s with log := s.log.set clk.period e } else s

/-! ### gossiper/gen.go -/

/-- gossiper/gen.go:11-28 `Generate_Gossip_Object_FRAG`; `none` is a panic (no bls scheme: nil signature serialized) -/
def generateFRAG (cf : GConf L) (g : GossipObj) : Option GossipObj :=
  match (cf.crypto.thresholdSign g.payload.cat).1.toStr with
  | none => none
  | some str =>
    some { g with
      sig := { g.sig with s0 := str }
      signer := cf.crypto.selfID
      cryptoScheme := go!"bls"
      type := match g.type with
        | .STH_INIT => .STH_FRAG
        | .REV_INIT => .REV_FRAG
        | .ACC_INIT => .ACC_FRAG
        | t => t }

/-- gossiper/gen.go:30-34 `Remove_Payload` -/
def removePayload (g : GossipObj) : GossipObj := { g with payload := { g.payload with p1 := [], p2 := [] } }

/-- gossiper/gen.go:36-45 `ReconstructPayload` -/
def reconstructPayload (s : GState) (g : GossipObj) : GossipObj :=
  { g with payload := ((s.storage.revPayload.get { g.getID with type := .REV_INIT }).getD .zero).payload }

/-- gossiper/gen.go:47-80 `Generate_Gossip_Object_FULL`; `none` is a panic (aggregation error followed by serializing
a nil signature, or `g_list[0]` on an empty list) -/
def generateFULL (cf : GConf L) (clk : Clock) (gs : List GossipObj) (target : GType) : Option GossipObj :=
  match cf.crypto.thresholdAggregate (gs.map fun g => (SigFragment.fromStr L g.sig.s0).1) with
  | .err => none
  | .panic => none
  | .ok t =>
    match t.toStr, gs with
    | some str, g0 :: _ =>
      some { application := CTNG_APPLICATION, type := target, period := clk.period, signer := [],
             signers := gs.map (·.signer), sig := ⟨str, []⟩, timestamp := clk.timestamp, cryptoScheme := go!"bls",
             payload := g0.payload }
    | _, _ => none

/-- gossiper/gen.go:82-93 `Generate_CON_INIT` -/
def generateCON (clk : Clock) (o1 o2 : GossipObj) : GossipObj :=
  { application := CTNG_APPLICATION, type := .CON_INIT, period := clk.period, signer := [], signers := [],
    timestamp := clk.timestamp, cryptoScheme := [], sig := ⟨o1.sig.s0, o2.sig.s0⟩,
    payload := ⟨o1.payload.p0, o1.payload.cat, o2.payload.cat⟩ }

/-! ### gossiper/gossiper_server.go: sending -/

/-- gossiper_server.go:480-501: route of a type -/
def endpointOf : GType → Str
  | .STH_INIT => go!"/gossip/sth_init"
  | .REV_INIT => go!"/gossip/rev_init"
  | .ACC_INIT => go!"/gossip/acc_init"
  | .CON_INIT => go!"/gossip/con_init"
  | .STH_FRAG => go!"/gossip/sth_frag"
  | .REV_FRAG => go!"/gossip/rev_frag"
  | .ACC_FRAG => go!"/gossip/acc_frag"
  | .STH_FULL => go!"/gossip/sth_full"
  | .REV_FULL => go!"/gossip/rev_full"
  | .ACC_FULL => go!"/gossip/acc_full"
  | .other _ => []

/-- gossiper_server.go:458-464: the notification announcing a large REV_INIT -/
def notificationOf (cf : GConf L) (g : GossipObj) : Notification :=
  { sender := cf.crypto.selfID, period := g.period, type := g.type, entity := g.payload.p0,
    objhash := computeObjHash L g }

/-- gossiper_server.go:449-533 `Send_obj_to_Gossipers` (and 382-388 `Send_to_Gossipers`). The POSTs are started as
goroutines with a random delay; the trace records them when started. Transport errors are only printed. -/
def sendToGossipers (cf : GConf L) (s : GState) (g : GossipObj) : GState :=
  let bytecount := cf.jsonLen g
  if (bytecount : Int) > cf.optThreshold ∧ g.type = .REV_INIT then
    let n := notificationOf cf g
    { s with
      trafficSent := s.trafficSent + cf.notifLen n * cf.connected.length
      out := s.out ++ cf.connected.map fun u => .peer u (go!"/gossip/new_payload_notification") (.notif n) }
  else
    let g' := if (bytecount : Int) > cf.optThreshold ∧ g.type = .REV_FRAG then removePayload g else g
    { s with
      trafficSent := s.trafficSent + cf.jsonLen g' * cf.connected.length
      out := s.out ++ cf.connected.map fun u => .peer u (endpointOf g.type) (.obj g') }

/-- gossiper_server.go:534-560 `Send_to_Monitor` -/
def sendToMonitor (s : GState) (g : GossipObj) : GState := s.emit [.owner g]

/-! ### gossiper/gossiper_server.go: handlers

Handlers return the new state and whether they panicked. `rec` stands for the recursive call of
`Handle_Gossip_object`; `handle` below ties the knot. -/

abbrev Handler := GState → GossipObj → GState × Bool

/-- gossiper_server.go:210-251 `Handle_STH_INIT` and 253-292 `Handle_REV_INIT`; the two bodies differ only in the FULL
and FRAG types passed to the count checks. Arming the timer is recorded in `timers`. -/
def handleInit (cf : GConf L) (clk : Clock) (full frag : GType) (rec : Handler) : Handler := fun s g =>
  if itemCount s g.getID full > 0 then (s, false)
  else if (itemCount s g.getID frag : Int) ≥ cf.crypto.threshold then (s, false)
  else if isMalicious s g then
    rec s (generateCON clk (getObject s g.getID g.type) g)
  else
    match storeGossipObject cf clk s g with
    | (s, .panic) => (s, true)
    | (s, .refused) => (s, false)
    | (s, .stored) =>
      let s := sendToMonitor (sendToGossipers cf s g) g
      ({ s with timers := s.timers ++ [g] }, false)

/-- Generate a fragment and record the signing. `none`: panic. -/
def signStatement (cf : GConf L) (s : GState) (g : GossipObj) : Option (GState × GossipObj) :=
  (generateFRAG cf g).map fun f => (s.emit [.signed f], f)

/-- gossiper_server.go:294-316 `Handle_ACC_INIT` -/
def handleAcc (cf : GConf L) (clk : Clock) (rec : Handler) : Handler := fun s g =>
  if itemCount s g.getID .ACC_FULL > 0 then (s, false)
  else if (itemCount s g.getID .ACC_FRAG : Int) ≥ cf.crypto.threshold then (s, false)
  else
    match storeGossipObject cf clk s g with
    | (s, .panic) => (s, true)
    | (s, .refused) => (s, false)
    | (s, .stored) =>
      if inBlacklist s g.payload.p0 then (s, false)
      else
        match signStatement cf s g with
        | none => (s, true)
        | some (s, f) => rec s f

/-- gossiper_server.go:318-329 `Handle_CON_INIT` -/
def handleCon (cf : GConf L) (clk : Clock) : Handler := fun s g =>
  if itemCount s g.getID g.type = 0 then
    match storeGossipObject cf clk s g with
    | (s, .panic) => (s, true)
    | (s, .refused) => (s, false)
    | (s, .stored) => (sendToMonitor (sendToGossipers cf s g) g, false)
  else (s, false)

/-- gossiper_server.go:332-340: the FULL type whose count is checked for a fragment -/
def fullTypeOf : GType → GType
  | .STH_FRAG => .STH_FULL
  | .REV_FRAG => .REV_FULL
  | .ACC_FRAG => .ACC_FULL
  | t => t

/-- gossiper_server.go:331-363 `Handle_OBJ_FRAG` -/
def handleFrag (cf : GConf L) (clk : Clock) (rec : Handler) : Handler := fun s g =>
  if itemCount s g.getID (fullTypeOf g.type) > 0 then (s, false)
  else
    match readAndStore cf s g with
    | (s, before) =>
      match (if (before : Int) = cf.crypto.threshold - 1 then
              match generateFULL cf clk (getObjectList s g.getID g.type) g.getTargetType with
              | none => (s, true)
              | some o => rec (s.emit [.generatedFull g.getID o]) o
            else (s, false)) with
      | (s, true) => (s, true)
      | (s, false) =>
        if (before : Int) < cf.crypto.threshold then (sendToGossipers cf s g, false) else (s, false)

/-- gossiper_server.go:365-380 `Handle_OBJ_FULL`: the result of Store is ignored -/
def handleFull (cf : GConf L) (clk : Clock) : Handler := fun s g =>
  if inBlacklist s g.payload.p0 then (s, false)
  else if itemCount s g.getID g.type = 0 then
    match storeGossipObject cf clk s g with
    | (s, .panic) => (s, true)
    | (s, _) => (noteConverge cf clk (sendToMonitor s g), false)
  else (noteConverge cf clk s, false)

/-- gossiper_server.go:180-208 `Handle_Gossip_object` -/
def dispatch (cf : GConf L) (clk : Clock) (rec : Handler) : Handler := fun s g =>
  if dupCheck s g then (s, false)
  else if inBlacklist s g.payload.p0 then (s, false)
  else
    match g.type with
    | .STH_INIT => handleInit cf clk .STH_FULL .STH_FRAG rec s g
    | .REV_INIT => handleInit cf clk .REV_FULL .REV_FRAG rec s g
    | .ACC_INIT => handleAcc cf clk rec s g
    | .CON_INIT => handleCon cf clk s g
    | .STH_FRAG | .REV_FRAG | .ACC_FRAG => handleFrag cf clk rec s g
    | .STH_FULL | .REV_FULL | .ACC_FULL => handleFull cf clk s g
    | .other _ => (s, false)

/-- `Handle_Gossip_object` with a bound on the recursion depth. -/
def handleN (cf : GConf L) (clk : Clock) : Nat → Handler
  | 0 => fun s _ => (s, false)
  | n + 1 => dispatch cf clk (handleN cf clk n)

/-- gossiper_server.go:180-208 `Handle_Gossip_object`. The recursion is at most three deep (INIT → FRAG → FULL or
INIT → CON); `handle_eq` (Proofs/GossiperBasic.lean) shows that this function satisfies the recursive equation of the
code. -/
def handle (cf : GConf L) (clk : Clock) : Handler := handleN cf clk 3

/-- gossiper_server.go:146-178 `Gossip_object_handler`, for a body that decoded without error. Every route shares this
handler and the object's type is not compared with the route. -/
def gossipObjectHandler (cf : GConf L) (clk : Clock) (bytecount : Int) : Handler := fun s g =>
  let s := { s with trafficReceived := s.trafficReceived + bytecount }
  match (if bytecount > cf.optThreshold ∧ g.type = .REV_INIT then savePayload cf s g else (s, true)) with
  | (s, false) => (s, true)
  | (s, true) =>
    let g := if cf.optMode = true ∧ g.type = .REV_FRAG then reconstructPayload s g else g
    handle cf clk s g

/-- gossiper_server.go:49-96 `Gossip_notification_handler` -/
def notificationHandler (cf : GConf L) (bytecount : Int) (s : GState) (n : Notification) : GState :=
  let s := { s with trafficReceived := s.trafficReceived + bytecount }
  if searchPayload L s { period := n.period, type := n.type, entity := n.entity } n.objhash = false then
    let n' := { n with sender := cf.crypto.selfID }
    { s with
      trafficSent := s.trafficSent + cf.notifLen n'
      out := s.out ++ [.peer n.sender (go!"/gossip/new_payload_request") (.notif n')] }
  else s

/-- gossiper_server.go:98-144 `Gossip_request_handler` -/
def requestHandler (cf : GConf L) (bytecount : Int) (s : GState) (n : Notification) : GState :=
  let s := { s with trafficReceived := s.trafficReceived + bytecount }
  let o := getREVrequested s { period := n.period, type := n.type, entity := n.entity }
  if o.payload.p0 ≠ [] then
    { s with
      trafficSent := s.trafficSent + cf.jsonLen o
      out := s.out ++ [.peer n.sender (go!"/gossip/rev_init") (.obj o)] }
  else s

/-- gossiper_server.go:242-248, 283-289: the timer function, for the INIT object its closure captured -/
def timerFire (cf : GConf L) (clk : Clock) : Handler := fun s g =>
  if inBlacklist s g.payload.p0 then (s, false)
  else
    match signStatement cf s g with
    | none => (s, true)
    | some (s, f) => handle cf clk s f

/-- gossiper_server.go:562-576 `PeriodicTasks`, the task f1 -/
def periodicTask (clk : Clock) (s : GState) : GState := wipeStorage (save clk s)

/-! ### The gossiper as a sequential machine -/

/-- One event at a gossiper. -/
inductive GOp where
  | recv (bytecount : Int) (o : GossipObj)
  | notify (bytecount : Int) (n : Notification)
  | request (bytecount : Int) (n : Notification)
  /-- the i-th armed timer fires -/
  | fire (i : Nat)
  | periodic
  deriving DecidableEq

/-- Execute one event to completion at a given clock reading. -/
def gstep (cf : GConf L) (s : GState) (e : Clock × GOp) : GState :=
  if s.crashed then s else
  match e.2 with
  | .recv n o => (gossipObjectHandler cf e.1 n s o).1
  | .notify n x => notificationHandler cf n s x
  | .request n x => requestHandler cf n s x
  | .fire i =>
    match s.timers[i]? with
    | none => s
    | some o =>
      match timerFire cf e.1 { s with timers := s.timers.eraseIdx i } o with
      | (s, false) => s
      | (s, true) => { s with crashed := true }
  | .periodic => periodicTask e.1 s

/-- Execute a history. -/
def grun (cf : GConf L) (s : GState) (h : List (Clock × GOp)) : GState := h.foldl (gstep cf) s

/-- States reachable from start-up by sequentially executed events. -/
def GReach (cf : GConf L) (s : GState) : Prop := ∃ h, s = grun cf GState.init h

end
end CTng
