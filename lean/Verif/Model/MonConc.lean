import Verif.Model.Monitor
/-
A monitor in single steps: handlers, queries, timers and the end of a period are goroutines, and nothing keeps the end of a
period apart from the others (monitor/monitor.go:43-66, 142-283, 316-340, 441-470, monitor/types.go:88-132, 209-297).
Simplifications: a read or write of one map, a loop over one map, the two reads of
`Check_entity_pom`, the store of a revocation with the arming of its timer, and a verification with what it reads are single steps; the
start of a period is a single step. (The Go runtime may also end the process when a map is written during another access,
see C129.)
-/
set_option autoImplicit false

namespace CTng
open Mon

/-- monitor/monitor.go:460-468 with 413-439, monitor/types.go:88-132, 271-297: where the end of a period is. -/
inductive EndAt where
  /-- types.go:90: about to drop tree heads of entities with a conflict proof -/
  | cleanSth
  /-- types.go:101: the same for revocations -/
  | cleanRev
  /-- types.go:272: about to empty the temporary store -/
  | wipeTemp
  /-- types.go:276 -/
  | wipeSth
  /-- types.go:281 -/
  | wipeRev
  /-- types.go:286 -/
  | wipeCon
  /-- types.go:291 -/
  | wipeAcc
  /-- monitor.go:418: about to list the tree heads -/
  | listSth
  /-- monitor.go:421 -/
  | listRev (sths : List GossipObj)
  /-- monitor.go:424 -/
  | listCon (sths revs : List GossipObj)
  /-- monitor.go:427 -/
  | listAcc (sths revs cons : List GossipObj)
  /-- monitor.go:430: about to read the period of the update -/
  | stamp (sths revs cons accs : List GossipObj)
  /-- monitor.go:464: about to read the number of the directory and to write the update -/
  | save (u : ClientUpdate)
  /-- types.go:124: about to write the vectors -/
  | saveCrv

/-- Where a goroutine of a monitor is. -/
inductive MonG where
  /-- monitor.go:50: a handler about to look whether the object is stored -/
  | check (g : GossipObj)
  /-- types.go:209: about to store an object -/
  | put (g : GossipObj)
  /-- types.go:223, 230: about to store a proof among the new ones -/
  | putNew (g : GossipObj)
  /-- monitor.go:147, 245: a query with its answer -/
  | answered (u : Str) (k : EntityKind) (f : Fetched)
  /-- monitor.go:319: the timer of `Wait_then_accuse`, about to look for a statement -/
  | waiting (e : Str) (k : EntityKind)
  /-- monitor.go:335: no statement; about to look for a proof -/
  | silent (e : Str)
  /-- monitor.go:290: about to look for a proof again -/
  | accuse (e : Str)
  /-- monitor.go:293: about to make and send the accusation -/
  | accusing (e : Str)
  /-- types.go:251: the timer of a revocation, about to look for a vector -/
  | crvLook (key : Str) (d : BitSet)
  /-- types.go:253: no vector; about to store one -/
  | crvNew (key : Str) (d : BitSet)
  /-- monitor.go:461 -/
  | ending (a : EndAt)
  | done

/-- monitor/types.go:16-40: the monitor and its goroutines. A panic ends the process. -/
structure MonC where
  m : MonState
  gs : List MonG
  dead : Bool

/-- monitor/types.go:209-268: what `StoreObject` does first -/
def putObject (s : MonState) (o : GossipObj) (X : XLib) : MonState :=
  match o.type with
  | .CON_INIT => { s with conflictPom := s.conflictPom.set o.getID o }
  | .ACC_FULL => { s with accusationPom := s.accusationPom.set o.getID o }
  | _ => storeObject X s o

/-- monitor/types.go:223, 230: the second store of a proof -/
def putNewObject (s : MonState) (o : GossipObj) : MonState :=
  match o.type with
  | .CON_INIT => { s with conflictDelta := s.conflictDelta.set o.getID o }
  | .ACC_FULL => { s with accusationDelta := s.accusationDelta.set o.getID o }
  | _ => s

variable {L : Lib} (X : XLib)

/-- monitor/monitor.go:474-491 `Process_valid_object` up to the storing -/
def processThen (c : MonConf L) (s : MonState) (g : GossipObj) : MonState × MonG :=
  let s := if g.type = .STH_INIT ∧ isLogger c g.signer then send s g else s
  let s := if g.type = .REV_INIT ∧ isAuthority c g.signer then send s g else s
  (s, if g.type = .ACC_FULL ∨ g.type = .CON_INIT ∨ g.type = .STH_FULL ∨ g.type = .REV_FULL then .put g else .done)

/-- monitor/types.go:90-99, 101-110: the test of `Clean_Conflicting_Object` -/
def cleanKeep (s : MonState) (k : GossipID) (_ : GossipObj) : Bool := !s.conflictPom.has ⟨go!"0", .CON_INIT, k.entity⟩

/-- monitor/types.go:277, 282, 287, 292: the test of `WipeStorage` -/
def wipeKeep (clk : Clock) (k : GossipID) (_ : GossipObj) : Bool := k.period = clk.period

/-- monitor/monitor.go:461-467: one step of the end of a period -/
def endStep (c : MonConf L) (clk : Clock) (s : MonState) : EndAt → MonState × MonG
  | .cleanSth => ({ s with sthFull := s.sthFull.filterKV (cleanKeep s) }, .ending .cleanRev)
  | .cleanRev => ({ s with revFull := s.revFull.filterKV (cleanKeep s) }, .ending .wipeTemp)
  | .wipeTemp => ({ s with temp := .empty }, .ending .wipeSth)
  | .wipeSth => ({ s with sthFull := s.sthFull.filterKV (wipeKeep clk) }, .ending .wipeRev)
  | .wipeRev => ({ s with revFull := s.revFull.filterKV (wipeKeep clk) }, .ending .wipeCon)
  | .wipeCon => ({ s with conflictDelta := s.conflictDelta.filterKV (wipeKeep clk) }, .ending .wipeAcc)
  | .wipeAcc => ({ s with accusationDelta := s.accusationDelta.filterKV (wipeKeep clk) }, .ending .listSth)
  | .listSth => (s, .ending (.listRev s.sthFull.values))
  | .listRev sths => (s, .ending (.listCon sths s.revFull.values))
  | .listCon sths revs => (s, .ending (.listAcc sths revs s.conflictDelta.values))
  | .listAcc sths revs cons => (s, .ending (.stamp sths revs cons s.accusationDelta.values))
  | .stamp sths revs cons accs => (s, .ending (.save ⟨sths, revs, cons, accs, c.crypto.selfID, clk.period⟩))
  | .save u => ({ s with files := s.files.set (periodIO c clk) u }, .ending .saveCrv)
  | .saveCrv => ({ s with crvFile := s.crv.entries.map fun e => (e.1, X.compress (X.marshal e.2)) }, .done)

/-- monitor/monitor.go:43-66, 142-340, 441-470 and monitor/types.go:209-268: one step of a goroutine at clock `clk`; `none` is a
panic. -/
def gStep (c : MonConf L) (clk : Clock) (s : MonState) : MonG → Option (MonState × MonG)
  | .check g =>
    if isDuplicate s g then some (s, .done)
    else
      match g.type with
      | .STH_INIT => some (s, .put g)
      | .REV_INIT => some (s, .put g)
      | _ => some (processThen c s g)
  | .put g => some (putObject s g X, if g.type = .CON_INIT ∨ g.type = .ACC_FULL then .putNew g else .done)
  | .putNew g => some (putNewObject s g, .done)
  | .answered u k f =>
    let wait := { s with waits := s.waits ++ [(u, k)] }
    match f with
    | .failed => some (wait, .done)
    | .obj g =>
      match g.verify c.crypto with
      | .panic => none
      | .err _ => some (wait, .done)
      | .ok =>
        match k with
        | .logger => some (processThen c s g)
        | .ca =>
          match verifySRH X c.crypto s.crv (getSRHandDCRV X g).1 (getSRHandDCRV X g).2 g.payload.p0 g.period with
          | .panic => none
          | .err _ => some (wait, .done)
          | .ok => some (processThen c s g)
  | .waiting e k =>
    let ok := match k with
      | .logger => s.temp.has ⟨clk.period, .STH_INIT, e⟩
      | .ca => s.temp.has ⟨clk.period, .REV_INIT, e⟩
    some (s, if ok then .done else .silent e)
  | .silent e => some (s, if checkEntityPom s clk e then .done else .accuse e)
  | .accuse e => some (s, if checkEntityPom s clk e then .done else .accusing e)
  | .accusing e => some (send s (accusation c clk e), .done)
  | .crvLook key d => some (s, if s.crv.has key then .done else .crvNew key d)
  | .crvNew key d => some ({ s with crv := s.crv.set key d }, .done)
  | .ending a => some (endStep X c clk s a)
  | .done => some (s, .done)

/-- What can happen: a goroutine is started, or takes a step. -/
inductive MonCEvent where
  /-- a POST of the gossiper -/
  | gossip (body : Option GossipObj)
  /-- the start of a period -/
  | query (clk : Clock)
  /-- the `i`-th query under way gets its answer -/
  | answer (i : Nat) (f : Fetched)
  /-- the `i`-th `Wait_then_accuse` timer fires -/
  | wait (i : Nat)
  /-- the `i`-th revocation timer fires -/
  | crv (i : Nat)
  /-- the timer of the end of the period fires -/
  | finish
  /-- the `i`-th goroutine takes a step -/
  | run (i : Nat) (clk : Clock)

/-- monitor/monitor.go:43-470: one event. -/
def monCStep (c : MonConf L) (x : MonC) (e : MonCEvent) : MonC :=
  if x.dead then x
  else
    match e with
    | .gossip b => { x with gs := x.gs ++ [.check (b.getD .zero)] }
    | .query clk => { x with m := startQueries c clk x.m }
    | .answer i f =>
      match x.m.queries[i]? with
      | none => x
      | some (u, k) => { x with m := { x.m with queries := x.m.queries.eraseIdx i }, gs := x.gs ++ [.answered u k f] }
    | .wait i =>
      match x.m.waits[i]? with
      | none => x
      | some (u, k) => { x with m := { x.m with waits := x.m.waits.eraseIdx i }, gs := x.gs ++ [.waiting u k] }
    | .crv i =>
      match x.m.crvTimers[i]? with
      | none => x
      | some (k, d) => { x with m := { x.m with crvTimers := x.m.crvTimers.eraseIdx i }, gs := x.gs ++ [.crvLook k d] }
    | .finish => { x with gs := x.gs ++ [.ending .cleanSth] }
    | .run i clk =>
      match x.gs[i]? with
      | none => x
      | some g =>
        match gStep X c clk x.m g with
        | none => { x with dead := true }
        | some (m', g') => { x with m := m', gs := x.gs.set i g' }

/-- A schedule (monitor/monitor.go:43-470). -/
def monCRun (c : MonConf L) (x : MonC) (h : List MonCEvent) : MonC := h.foldl (monCStep X c) x

/-- monitor/types.go:16-40: a monitor that has just been started. -/
def MonC.init : MonC := ⟨initMonitor, [], false⟩

end CTng
