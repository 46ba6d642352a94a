import Verif.Model.GossiperConc
/-
The gossiper at the level of its locks.

`Model/GossiperConc.lean` executes every lock-protected section of gossiper/Interface.go as one atomic action. Here a section is
what the code is: acquire the locks one by one, look at the maps access by access, release the locks. Each of these is a step of
its own, every access to a map has a beginning and an end, and the goroutines interleave between any two of them. The locks are
Go's `sync.RWMutex`.

Simplifications. Data without a lock (`Timerlist`, the traffic counters, the convergence times, the log) is updated together with
the last access of the section next to it, as is what a handler does with local data after the section. `len(m)` is not an access:
the Go runtime does not check it. The counts `Save` logs are taken together, after its three loops.
-/
set_option autoImplicit false

namespace CTng
namespace Locks

/-- The maps of single objects, gossiper/types.go:28-31, 35-38. -/
inductive ObjMap where
  | sthInit | revInit | accInit | conInit | sthFull | revFull | accFull | payload
  deriving DecidableEq, Repr

/-- The maps of fragment lists, gossiper/types.go:32-34. -/
inductive FragMap where
  | sth | rev | acc
  deriving DecidableEq, Repr

/-- The maps with the lock of the same name, gossiper/types.go:39-55 (`CON_FULL_LOCK` is never used). -/
inductive LockName where
  | obj (m : ObjMap)
  | frag (m : FragMap)
  | blacklist
  deriving DecidableEq, Repr

/-- Content of a map. -/
abbrev Val : LockName → Type
  | .obj _ => GoMap GossipID GossipObj
  | .frag _ => GoMap GossipID (List GossipObj)
  | .blacklist => GoMap Str Bool

/-- gossiper/types.go:28-31, 35-38 -/
def objAt (s : Storage) : ObjMap → GoMap GossipID GossipObj
  | .sthInit => s.sthInit
  | .revInit => s.revInit
  | .accInit => s.accInit
  | .conInit => s.conInit
  | .sthFull => s.sthFull
  | .revFull => s.revFull
  | .accFull => s.accFull
  | .payload => s.revPayload

/-- gossiper/types.go:32-34 -/
def fragAt (s : Storage) : FragMap → GoMap GossipID (List GossipObj)
  | .sth => s.sthFrag
  | .rev => s.revFrag
  | .acc => s.accFrag

/-- Replace a map of single objects, gossiper/types.go:28-31, 35-38. -/
def putObjAt (s : Storage) (m : ObjMap) (v : GoMap GossipID GossipObj) : Storage :=
  match m with
  | .sthInit => { s with sthInit := v }
  | .revInit => { s with revInit := v }
  | .accInit => { s with accInit := v }
  | .conInit => { s with conInit := v }
  | .sthFull => { s with sthFull := v }
  | .revFull => { s with revFull := v }
  | .accFull => { s with accFull := v }
  | .payload => { s with revPayload := v }

/-- Replace a map of fragments, gossiper/types.go:32-34. -/
def putFragAt (s : Storage) (m : FragMap) (v : GoMap GossipID (List GossipObj)) : Storage :=
  match m with
  | .sth => { s with sthFrag := v }
  | .rev => { s with revFrag := v }
  | .acc => { s with accFrag := v }

/-- The content of a map, gossiper/types.go:27-56. -/
def load (g : GState) : (m : LockName) → Val m
  | .obj m => objAt g.storage m
  | .frag m => fragAt g.storage m
  | .blacklist => g.blacklist

/-- Change the content of a map, gossiper/types.go:27-56. -/
def put (g : GState) : (m : LockName) → Val m → GState
  | .obj m, v => { g with storage := putObjAt g.storage m v }
  | .frag m, v => { g with storage := putFragAt g.storage m v }
  | .blacklist, v => { g with blacklist := v }

/-- Program points: those of `Model/GossiperConc.lean`, and the point between the two sections of the blacklist update
(Interface.go:183-184, 217-218). -/
inductive LFrame where
  | pt (f : Frame)
  | blAdd (g : GossipObj)
  deriving DecidableEq

/-- Changes to data that no lock protects, gossiper/types.go:66-67, 73-85. -/
structure Upd where
  received : Int := 0
  sent : Int := 0
  out : List Out := []
  timers : List GossipObj := []
  times : List Str := []
  conv : Option Str := none
  convInit : Option Str := none
  /-- Interface.go:104-115: the log entry is written -/
  log : Bool := false

/-- Execute the changes. -/
def Upd.apply (u : Upd) (clk : Clock) (g : GState) : GState :=
  let g := { g with
    trafficReceived := g.trafficReceived + u.received
    trafficSent := g.trafficSent + u.sent
    out := g.out ++ u.out
    timers := g.timers ++ u.timers
    timerlist := g.timerlist ++ u.times
    convergeTime := u.conv.getD g.convergeTime
    convergeTimeInit := u.convInit.getD g.convergeTimeInit }
  if u.log then save clk g else g

/-- What a section leads to: changes to unprotected data and the program points that follow, `none` for a panic. -/
structure Ans where
  upd : Upd := {}
  next : Option (List LFrame)

/-- No changes, these program points follow. -/
def goOn (fs : List Frame) (_ : Clock) : Ans := { next := some (fs.map .pt) }

/-- The accesses of a section, between its locks and its unlocks. A writing access is the last one. -/
inductive Body where
  /-- nothing more to look at -/
  | ret (r : Clock → Ans)
  /-- `len(m)` as the last thing -/
  | peek (m : LockName) (r : Val m → Clock → Ans)
  /-- look at a map -/
  | read (m : LockName) (k : Val m → Body)
  /-- change a map in place -/
  | write (m : LockName) (f : Val m → Val m) (r : Clock → Ans)

/-- A section: the locks in the order of acquisition (`true` for `Lock`, `false` for `RLock`) and the accesses. The unlocks are
in the opposite order (`defer`, or a single lock). -/
structure Sec where
  locks : List (LockName × Bool)
  body : Body

/-- A program point without any section. -/
def localSec (r : Clock → Ans) : Sec := ⟨[], .ret r⟩

/-- The map of single objects the `switch` statements of Interface.go select. -/
def objMap : GType → Option ObjMap
  | .STH_INIT => some .sthInit
  | .REV_INIT => some .revInit
  | .ACC_INIT => some .accInit
  | .CON_INIT => some .conInit
  | .STH_FULL => some .sthFull
  | .REV_FULL => some .revFull
  | .ACC_FULL => some .accFull
  | _ => none

/-- The map of fragments the `switch` statements of Interface.go select. -/
def fragMap : GType → Option FragMap
  | .STH_FRAG => some .sth
  | .REV_FRAG => some .rev
  | .ACC_FRAG => some .acc
  | _ => none

/-- Interface.go:260-263 and the like: `if _, ok := M[id]; !ok { return false }; return M[id].Signature == sig` -/
def dupObj (m : ObjMap) (g : GossipObj) (k : Bool → Body) : Body :=
  .read (.obj m) fun v =>
    if v.has g.getID then .read (.obj m) fun v => k (decide (((v.get g.getID).getD .zero).sig = g.sig)) else k false

/-- Interface.go:281-288 and the like: `len(M[id]) == 0`, then the loop over `M[id]` -/
def dupFrag (m : FragMap) (g : GossipObj) (k : Bool → Body) : Body :=
  .read (.frag m) fun v =>
    if ((v.get g.getID).getD []).length = 0 then k false
    else .read (.frag m) fun v => k (((v.get g.getID).getD []).any fun o => o.sig = g.sig)

/-- gossiper/Interface.go:325-412 `IsDuplicate_G` -/
def dupSec (g : GossipObj) (r : Bool → Clock → Ans) : Sec :=
  match objMap g.type, fragMap g.type with
  | some m, _ => ⟨[(.obj m, false)], dupObj m g fun b => .ret (r b)⟩
  | _, some m => ⟨[(.frag m, false)], dupFrag m g fun b => .ret (r b)⟩
  | _, _ => localSec (r false)

/-- gossiper/Interface.go:118-123 `InBlacklistPerm` -/
def blSec (id : Str) (r : Bool → Clock → Ans) : Sec :=
  ⟨[(.blacklist, false)], .read .blacklist fun v => .ret (r (v.has id))⟩

/-- gossiper/Interface.go:455-527 `GetGossipObjectCount` -/
def countSec (id : GossipID) (t : GType) (r : Nat → Clock → Ans) : Sec :=
  match objMap t, fragMap t with
  | some m, _ => ⟨[(.obj m, false)], .read (.obj m) fun v => .ret (r (if v.has id then 1 else 0))⟩
  | _, some m => ⟨[(.frag m, false)], .read (.frag m) fun v => .ret (r ((v.get id).getD []).length)⟩
  | _, _ => localSec (r 0)

/-- gossiper/Interface.go:529-561 `GetObject` -/
def objectSec (id : GossipID) (t : GType) (r : GossipObj → Clock → Ans) : Sec :=
  match objMap t with
  | some m => ⟨[(.obj m, false)], .read (.obj m) fun v => .ret (r ((v.get id).getD .zero))⟩
  | none => localSec (r .zero)

/-- gossiper/Interface.go:436-453 `GetObjectList` -/
def listSec (id : GossipID) (t : GType) (r : List GossipObj → Clock → Ans) : Sec :=
  match fragMap t with
  | some m => ⟨[(.frag m, false)], .read (.frag m) fun v => .ret (r ((v.get id).getD []))⟩
  | none => localSec (r [])

/-- gossiper/Interface.go:134-216: the locked part of `Store_gossip_object`. `DupCheckInLock` (257-324) is only called for INIT
objects; each of the two returns unlocks. -/
def storeSec (g : GossipObj) (r : Bool → Clock → Ans) : Sec :=
  match g.type with
  | .STH_INIT | .REV_INIT | .ACC_INIT | .CON_INIT =>
    match objMap g.type with
    | some m =>
      ⟨[(.obj m, true)], dupObj m g fun b =>
        if b then .ret (r false) else .write (.obj m) (fun v => v.set g.getID g) (r true)⟩
    | none => localSec (r true)
  | .STH_FRAG | .REV_FRAG | .ACC_FRAG =>
    match fragMap g.type with
    | some m =>
      ⟨[(.frag m, true)], .read (.frag m) fun _ =>
        .write (.frag m) (fun v => v.set g.getID ((v.get g.getID).getD [] ++ [g])) (r true)⟩
    | none => localSec (r true)
  | .STH_FULL | .REV_FULL | .ACC_FULL =>
    match objMap g.type with
    | some m => ⟨[(.obj m, true)], .write (.obj m) (fun v => v.set g.getID g) (r true)⟩
    | none => localSec (r true)
  | .other _ => localSec (r true)

section
variable {L : Lib}

/-- gossiper/Interface.go:227-256 `Read_and_Store_If_Needed` -/
def readStoreSec (cf : GConf L) (g : GossipObj) (r : Nat → Clock → Ans) : Sec :=
  match fragMap g.type with
  | some m =>
    ⟨[(.frag m, true)], .read (.frag m) fun v =>
      let before := ((v.get g.getID).getD []).length
      .read (.frag m) fun v =>
        if (((v.get g.getID).getD []).length : Int) < cf.crypto.threshold then
          .write (.frag m) (fun v => v.set g.getID ((v.get g.getID).getD [] ++ [g])) (r before)
        else .ret (r before)⟩
  | none => localSec (r 0)

/-- gossiper/Interface.go:597-611 `IsInitConvergent`: three read locks; the lengths are only read -/
def initConvSec (cf : GConf L) (r : Bool → Clock → Ans) : Sec :=
  ⟨[(.obj .revInit, false), (.obj .sthInit, false), (.obj .accInit, false)],
    .read (.obj .revInit) fun a => .read (.obj .sthInit) fun b => .read (.obj .accInit) fun c =>
      .ret (r (decide ((a.len + b.len + c.len : Int) = cf.totalLogger + cf.totalCA)))⟩

/-- gossiper/Interface.go:580-595 `IsConvergent`: three read locks, and the length of CON_INIT without its lock -/
def convSec (cf : GConf L) (r : Bool → Clock → Ans) : Sec :=
  ⟨[(.obj .revFull, false), (.obj .sthFull, false), (.obj .accFull, false)],
    .read (.obj .revFull) fun a => .read (.obj .sthFull) fun b => .read (.obj .accFull) fun c =>
      .peek (.obj .conInit) fun d =>
        r (decide ((a.len + b.len + c.len + d.len : Int) = cf.totalLogger + cf.totalCA))⟩

/-- gossiper_server.go:449-533: what `Send_obj_to_Gossipers` starts and counts -/
def sendUpd (cf : GConf L) (g : GossipObj) : Upd :=
  if (cf.jsonLen g : Int) > cf.optThreshold ∧ g.type = .REV_INIT then
    { sent := cf.notifLen (notificationOf cf g) * cf.connected.length
      out := cf.connected.map fun u =>
        .peer u (go!"/gossip/new_payload_notification") (.notif (notificationOf cf g)) }
  else
    let g' := if (cf.jsonLen g : Int) > cf.optThreshold ∧ g.type = .REV_FRAG then removePayload g else g
    { sent := cf.jsonLen g' * cf.connected.length
      out := cf.connected.map fun u => .peer u (endpointOf g.type) (.obj g') }

/-- gossiper_server.go:160-162 with Interface.go:43-52 `SavePayload`: verified before the lock is taken -/
def recvSec (cf : GConf L) (n : Int) (g : GossipObj) : Sec :=
  let ok : Clock → Ans := fun _ => { upd := { received := n }, next := some [.pt (.recon g)] }
  if n > cf.optThreshold ∧ g.type = .REV_INIT then
    match g.verify cf.crypto with
    | .panic => localSec fun _ => { upd := { received := n }, next := none }
    | .err _ => localSec ok
    | .ok => ⟨[(.obj .payload, true)], .write (.obj .payload) (fun v => v.set g.getID g) ok⟩
  else localSec ok

/-- gossiper/gen.go:36-45 `ReconstructPayload` -/
def reconSec (cf : GConf L) (g : GossipObj) : Sec :=
  if cf.optMode = true ∧ g.type = .REV_FRAG then
    ⟨[(.obj .payload, false)], .read (.obj .payload) fun v =>
      .ret (goOn [.handle { g with payload := ((v.get { g.getID with type := .REV_INIT }).getD .zero).payload }])⟩
  else localSec (goOn [.handle g])

/-- gossiper_server.go:70-94 with Interface.go:54-68 `SearchPayload` -/
def notifySec (cf : GConf L) (n : Int) (x : Notification) : Sec :=
  ⟨[(.obj .payload, false)], .read (.obj .payload) fun v =>
    let found : Bool := match v.get { period := x.period, type := .REV_INIT, entity := x.entity } with
      | none => false
      | some o => computeObjHash L o = x.objhash
    .ret fun _ =>
      if found = false then
        let x' := { x with sender := cf.crypto.selfID }
        { upd := { received := n, sent := cf.notifLen x',
                   out := [.peer x.sender (go!"/gossip/new_payload_request") (.notif x')] }, next := some [] }
      else { upd := { received := n }, next := some [] }⟩

/-- gossiper_server.go:121-142: the answer to a payload request -/
def requestAns (cf : GConf L) (n : Int) (x : Notification) (o : GossipObj) (_ : Clock) : Ans :=
  if o.payload.p0 ≠ [] then
    { upd := { received := n, sent := cf.jsonLen o, out := [.peer x.sender (go!"/gossip/rev_init") (.obj o)] },
      next := some [] }
  else { upd := { received := n }, next := some [] }

/-- gossiper_server.go:119-142 with Interface.go:70-78 `GetREVrequested` -/
def requestSec (cf : GConf L) (n : Int) (x : Notification) : Sec :=
  ⟨[(.obj .payload, false)], .read (.obj .payload) fun v =>
    if v.has { period := x.period, type := .REV_INIT, entity := x.entity } then
      .read (.obj .payload) fun v =>
        .ret (requestAns cf n x ((v.get { period := x.period, type := .REV_INIT, entity := x.entity }).getD .zero))
    else .ret (requestAns cf n x .zero)⟩

/-- Interface.go:80-116 `Save`: `countFragments` (35-41) loops over three maps, no lock is taken -/
def saveSec : Sec :=
  ⟨[], .read (.frag .sth) fun _ => .read (.frag .rev) fun _ => .read (.frag .acc) fun _ =>
    .ret fun _ => { upd := { log := true }, next := some [] }⟩

/-- The section at a program point (the points and their lines: `Frame`). `wipe` has none, see `tstep`. -/
def secOf (cf : GConf L) : LFrame → Sec
  | .blAdd g =>
    -- Interface.go:184-186, 218-220. Writing true over true changes nothing. Other types do not come here.
    match g.type with
    | .CON_INIT | .ACC_FULL => ⟨[(.blacklist, true)],
        .write .blacklist (fun v => if v.has g.payload.p0 then v else v.set g.payload.p0 true) (goOn [.storeNote g])⟩
    | _ => localSec (goOn [.storeNote g])
  | .pt f =>
    match f with
    | .recv n g => recvSec cf n g
    | .recon g => reconSec cf g
    | .handle g => dupSec g fun b => goOn (if b then [] else [.blk g])
    | .blk g => blSec g.payload.p0 fun b => goOn (if b then [] else
        match g.type with
        | .STH_INIT | .REV_INIT | .ACC_INIT => [.initFull g]
        | .CON_INIT => [.conCount g]
        | .STH_FRAG | .REV_FRAG | .ACC_FRAG => [.fragFull g]
        | .STH_FULL | .REV_FULL | .ACC_FULL => [.fullBlk g]
        | .other _ => [])
    | .initFull g => countSec g.getID (fullOfInit g.type) fun n => goOn (if n > 0 then [] else [.initFrag g])
    | .initFrag g => countSec g.getID (fragOfInit g.type) fun n => goOn (if (n : Int) ≥ cf.crypto.threshold then []
        else match g.type with | .ACC_INIT => [.store g] | _ => [.initMal g])
    | .initMal g =>
      -- Interface.go:613-627
      match g.type with
      | .STH_INIT | .REV_INIT => objectSec g.getID g.type fun o =>
          goOn (if decide (g.signer = o.signer) && decide (g.sig ≠ o.sig) then [.initCon g] else [.store g])
      | _ => localSec (goOn [.store g])
    | .initCon g => objectSec g.getID g.type fun o clk => goOn [.handle (generateCON clk o g)] clk
    | .store g =>
      match g.verify cf.crypto with
      | .panic => localSec fun _ => { next := none }
      | .err _ => localSec (goOn (afterStore g false))
      | .ok => storeSec g fun b clk =>
          { upd := { times := [clk.second] }, next := some ((if b then [.storeBl g] else afterStore g false).map .pt) }
    | .storeBl g =>
      -- Interface.go:183, 217
      match g.type with
      | .CON_INIT | .ACC_FULL => blSec g.payload.p0 fun b _ =>
          { next := some [if b then .pt (.storeNote g) else .blAdd g] }
      | _ => localSec (goOn [.storeNote g])
    | .storeNote g =>
      match g.type with
      | .STH_INIT | .REV_INIT | .ACC_INIT | .CON_INIT => initConvSec cf fun b clk =>
          { upd := { convInit := (if b then some clk.second else none) }, next := some ((afterStore g true).map .pt) }
      | _ => localSec (goOn (afterStore g true))
    | .sendPeers g => localSec fun _ => { upd := sendUpd cf g, next := some [] }
    | .sendOwner g => localSec fun _ => { upd := { out := [.owner g] }, next := some [] }
    | .arm g => localSec fun _ => { upd := { timers := [g] }, next := some [] }
    | .signBlk g => blSec g.payload.p0 fun b => goOn (if b then [] else [.sign g])
    | .sign g => localSec fun _ =>
      match generateFRAG cf g with
      | none => { next := none }
      | some f => { upd := { out := [.signed f] }, next := some [.pt (.handle f)] }
    | .conCount g => countSec g.getID g.type fun n => goOn (if n = 0 then [.store g] else [])
    | .fragFull g => countSec g.getID (fullTypeOf g.type) fun n => goOn (if n > 0 then [] else [.fragStore g])
    | .fragStore g => readStoreSec cf g fun before => goOn
        ((if (before : Int) = cf.crypto.threshold - 1 then [.fragGen g] else []) ++
         (if (before : Int) < cf.crypto.threshold then [.sendPeers g] else []))
    | .fragGen g => listSec g.getID g.type fun l clk =>
      match generateFULL cf clk l g.getTargetType with
      | none => { next := none }
      | some o => { upd := { out := [.generatedFull g.getID o] }, next := some [.pt (.handle o)] }
    | .fullBlk g => blSec g.payload.p0 fun b => goOn (if b then [] else [.fullCount g])
    | .fullCount g => countSec g.getID g.type fun n => goOn (if n = 0 then [.store g] else [.fullNote])
    | .fullNote => convSec cf fun b clk => { upd := { conv := (if b then some clk.second else none) }, next := some [] }
    | .notify n x => notifySec cf n x
    | .request n x => requestSec cf n x
    | .save => saveSec
    | .wipe => localSec (goOn [])

end

/-- The writer of a lock: none, one that waits for the readers to leave (new readers then wait), or one that holds it. -/
inductive Writer where
  | free | announced | held
  deriving DecidableEq, Repr

/-- Go's `sync.RWMutex`. -/
structure RW where
  w : Writer
  readers : Nat
  deriving DecidableEq, Repr

/-- The zero value. -/
def RW.zero : RW := ⟨.free, 0⟩

/-- The locks of a gossiper. -/
abbrev LockTab := LockName → RW

/-- Change one lock. -/
def LockTab.set (lk : LockTab) (l : LockName) (r : RW) : LockTab := fun l' => if l' = l then r else lk l'

/-- Where a goroutine is: between sections; in the section of a program point, with the locks it holds, the ones it still needs,
whether it has announced itself as the writer of the next one, the accesses left and whether one has begun; or releasing. -/
inductive Phase where
  | idle
  | sec (f : LFrame) (held todo : List (LockName × Bool)) (ann : Bool) (b : Body) (busy : Bool)
  | rel (held : List (LockName × Bool))

/-- A goroutine. -/
structure LThread where
  frames : List LFrame
  fatal : Bool
  phase : Phase

/-- What a step of a goroutine can be: impossible now, the end of the process ("fatal error: sync: Unlock of unlocked RWMutex",
which no handler recovers), or a change. -/
inductive TRes where
  | blocked
  | fatal
  | ok (g : GState) (lk : LockTab) (t : LThread)

/-- The last access of a section has been made. -/
def commit (clk : Clock) (a : Ans) (g : GState) (lk : LockTab) (t : LThread) (held : List (LockName × Bool)) : TRes :=
  match a.next with
  | some new => .ok (a.upd.apply clk g) lk { t with frames := new ++ t.frames, phase := .rel held.reverse }
  | none =>
    let g := a.upd.apply clk g
    .ok (if t.fatal then { g with crashed := true } else g) lk { t with frames := [], phase := .rel held.reverse }

section
variable {L : Lib}

/-- One step of a goroutine. `Lock` announces the writer and then waits for the readers; `WipeStorage` (Interface.go:629-639)
replaces the maps and, with them, the locks. -/
def tstep (cf : GConf L) (clk : Clock) (g : GState) (lk : LockTab) (t : LThread) : TRes :=
  match t.phase with
  | .idle =>
    match t.frames with
    | [] => .blocked
    | .pt .wipe :: fs => .ok (wipeStorage g) (fun _ => .zero) { t with frames := fs }
    | f :: fs =>
      .ok g lk { t with frames := fs, phase := .sec f [] (secOf cf f).locks false (secOf cf f).body false }
  | .sec f held ((l, true) :: todo) false b busy =>
    if (lk l).w = .free then
      .ok g (lk.set l { lk l with w := .announced }) { t with phase := .sec f held ((l, true) :: todo) true b busy }
    else .blocked
  | .sec f held ((l, true) :: todo) true b busy =>
    if (lk l).readers = 0 then
      .ok g (lk.set l { lk l with w := .held }) { t with phase := .sec f (held ++ [(l, true)]) todo false b busy }
    else .blocked
  | .sec f held ((l, false) :: todo) _ b busy =>
    if (lk l).w = .free then
      .ok g (lk.set l { lk l with readers := (lk l).readers + 1 })
        { t with phase := .sec f (held ++ [(l, false)]) todo false b busy }
    else .blocked
  | .sec _ held [] _ (.ret r) _ => commit clk (r clk) g lk t held
  | .sec _ held [] _ (.peek m r) _ => commit clk (r (load g m) clk) g lk t held
  | .sec f held [] ann (.read m k) busy =>
    if busy then .ok g lk { t with phase := .sec f held [] ann (k (load g m)) false }
    else .ok g lk { t with phase := .sec f held [] ann (.read m k) true }
  | .sec f held [] ann (.write m w r) busy =>
    if busy then commit clk (r clk) (put g m (w (load g m))) lk t held
    else .ok g lk { t with phase := .sec f held [] ann (.write m w r) true }
  | .rel [] => .ok g lk { t with phase := .idle }
  | .rel ((l, true) :: held) =>
    if (lk l).w = .held then .ok g (lk.set l { lk l with w := .free }) { t with phase := .rel held } else .fatal
  | .rel ((l, false) :: held) =>
    if 0 < (lk l).readers then
      .ok g (lk.set l { lk l with readers := (lk l).readers - 1 }) { t with phase := .rel held }
    else .fatal

/-- Shared data, locks and goroutines; `fatal`: the runtime has ended the process. -/
structure LState where
  g : GState
  lk : LockTab
  threads : List LThread
  fatal : Bool

/-- gossiper/Init.go:12-79 -/
def LState.init : LState := ⟨GState.init, fun _ => .zero, [], false⟩

/-- A goroutine that has just been started. -/
def newThread (f : Frame) (fatal : Bool) : LThread := ⟨[.pt f], fatal, .idle⟩

/-- One event, as `cstep`; `run i` is one step of goroutine i. -/
def lstep (cf : GConf L) (s : LState) (e : Clock × CEvent) : LState :=
  if s.g.crashed || s.fatal then s else
  match e.2 with
  | .recv n o => { s with threads := s.threads ++ [newThread (.recv n o) false] }
  | .notify n x => { s with threads := s.threads ++ [newThread (.notify n x) false] }
  | .request n x => { s with threads := s.threads ++ [newThread (.request n x) false] }
  | .fire i =>
    match s.g.timers[i]? with
    | none => s
    | some o => { s with g := { s.g with timers := s.g.timers.eraseIdx i },
                         threads := s.threads ++ [newThread (.signBlk o) true] }
  | .periodic => { s with threads := s.threads ++ [⟨[.pt .save, .pt .wipe], true, .idle⟩] }
  | .run i =>
    match s.threads[i]? with
    | none => s
    | some t =>
      match tstep cf e.1 s.g s.lk t with
      | .blocked => s
      | .fatal => { s with fatal := true }
      | .ok g lk t => { s with g := g, lk := lk, threads := s.threads.set i t }

/-- Execute a schedule. -/
def lrun (cf : GConf L) (s : LState) (h : List (Clock × CEvent)) : LState := h.foldl (lstep cf) s

end
end Locks
end CTng
