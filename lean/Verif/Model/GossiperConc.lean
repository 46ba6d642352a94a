import Verif.Model.Gossiper
/-
The gossiper with goroutines: a small-step machine.

Every HTTP request and every timer runs on its own goroutine. A goroutine is a stack of program points (`Frame`); one
step executes the program point on top as one atomic action. The atomic actions are the lock-protected sections of
gossiper/Interface.go and the actions on thread-local data between them. Simplifications: the unlocked accesses to
`Timerlist`, `Converge_time`, and the map lengths read without lock are treated as atomic; `IsConvergent` and
`IsInitConvergent` hold three read locks at once and are one action; a notification or payload request handler is one
action (its lock sections touch disjoint data); `WipeStorage` is one action. The locks themselves, single
map accesses and the overwriting of held mutexes are in Model/Locks.lean, which refines this machine (C122).
-/
set_option autoImplicit false

namespace CTng

/-- Program points, with the line in gossiper_server.go (GS) or Interface.go (IF) about to be executed. -/
inductive Frame where
  /-- GS 151-159: count the received bytes, then save the payload if large (GS 160-162) -/
  | recv (bytecount : Int) (g : GossipObj)
  /-- GS 163-165: restore the payload of a REV_FRAG -/
  | recon (g : GossipObj)
  /-- GS 182: duplicate check of Handle_Gossip_object -/
  | handle (g : GossipObj)
  /-- GS 191-207: blacklist check and switch -/
  | blk (g : GossipObj)
  /-- GS 211, 254, 295: FULL count of the INIT handlers -/
  | initFull (g : GossipObj)
  /-- GS 216, 259, 300: FRAG count of the INIT handlers -/
  | initFrag (g : GossipObj)
  /-- GS 222, 265: IsMalicious -/
  | initMal (g : GossipObj)
  /-- GS 225-229, 267-270: fetch the stored object, build the conflict proof, handle it -/
  | initCon (g : GossipObj)
  /-- IF 126-133 and the critical section of Store_gossip_object -/
  | store (g : GossipObj)
  /-- IF 183-188, 217-222: blacklist update of Store_gossip_object -/
  | storeBl (g : GossipObj)
  /-- IF 144-147 etc: convergence note of Store_gossip_object -/
  | storeNote (g : GossipObj)
  /-- GS 238, 279, 325: Send_to_Gossipers -/
  | sendPeers (g : GossipObj)
  /-- GS 240, 281, 326, 372: Send_to_Monitor -/
  | sendOwner (g : GossipObj)
  /-- GS 249, 290: time.AfterFunc -/
  | arm (g : GossipObj)
  /-- GS 243, 284, 310: blacklist check before signing -/
  | signBlk (g : GossipObj)
  /-- GS 246-247, 287-288, 313-314: sign and handle the fragment -/
  | sign (g : GossipObj)
  /-- GS 319: count check of Handle_CON_INIT -/
  | conCount (g : GossipObj)
  /-- GS 335-345: FULL count of Handle_OBJ_FRAG -/
  | fragFull (g : GossipObj)
  /-- GS 349: Read_and_Store_If_Needed -/
  | fragStore (g : GossipObj)
  /-- GS 353-357: list the fragments, aggregate, handle the FULL object -/
  | fragGen (g : GossipObj)
  /-- GS 366: blacklist check of Handle_OBJ_FULL -/
  | fullBlk (g : GossipObj)
  /-- GS 369: count check of Handle_OBJ_FULL -/
  | fullCount (g : GossipObj)
  /-- GS 374-377: convergence note of Handle_OBJ_FULL -/
  | fullNote
  | notify (bytecount : Int) (n : Notification)
  | request (bytecount : Int) (n : Notification)
  /-- GS 572: Save -/
  | save
  /-- GS 573: WipeStorage -/
  | wipe
  deriving DecidableEq

/-- What follows a successful or refused `Store` in the handler of the object's type. -/
def afterStore (g : GossipObj) (stored : Bool) : List Frame :=
  match g.type with
  | .STH_INIT | .REV_INIT => if stored then [.sendPeers g, .sendOwner g, .arm g] else []
  | .ACC_INIT => if stored then [.signBlk g] else []
  | .CON_INIT => if stored then [.sendPeers g, .sendOwner g] else []
  | .STH_FULL | .REV_FULL | .ACC_FULL => [.sendOwner g, .fullNote]
  | _ => []

/-- gossiper_server.go:211, 254, 295: the FULL type whose count the INIT handlers check -/
def fullOfInit : GType → GType
  | .STH_INIT => .STH_FULL
  | .REV_INIT => .REV_FULL
  | _ => .ACC_FULL

/-- gossiper_server.go:216, 259, 300: the FRAG type whose count the INIT handlers check -/
def fragOfInit : GType → GType
  | .STH_INIT => .STH_FRAG
  | .REV_INIT => .REV_FRAG
  | _ => .ACC_FRAG

variable {L : Lib}

/-- One atomic action: new shared state and the program points that replace the executed one; `none` is a panic. -/
def stepFrame (cf : GConf L) (clk : Clock) (s : GState) : Frame → GState × Option (List Frame)
  | .recv n g =>
    let s := { s with trafficReceived := s.trafficReceived + n }
    match (if n > cf.optThreshold ∧ g.type = .REV_INIT then savePayload cf s g else (s, true)) with
    | (s, false) => (s, none)
    | (s, true) => (s, some [.recon g])
  | .recon g => (s, some [.handle (if cf.optMode = true ∧ g.type = .REV_FRAG then reconstructPayload s g else g)])
  | .handle g => (s, some (if dupCheck s g then [] else [.blk g]))
  | .blk g =>
    (s, some (if inBlacklist s g.payload.p0 then [] else
      match g.type with
      | .STH_INIT | .REV_INIT | .ACC_INIT => [.initFull g]
      | .CON_INIT => [.conCount g]
      | .STH_FRAG | .REV_FRAG | .ACC_FRAG => [.fragFull g]
      | .STH_FULL | .REV_FULL | .ACC_FULL => [.fullBlk g]
      | .other _ => []))
  | .initFull g =>
    (s, some (if itemCount s g.getID
          (fullOfInit g.type) > 0
        then [] else [.initFrag g]))
  | .initFrag g =>
    (s, some (if (itemCount s g.getID
          (fragOfInit g.type) : Int)
            ≥ cf.crypto.threshold
        then [] else match g.type with | .ACC_INIT => [.store g] | _ => [.initMal g]))
  | .initMal g => (s, some (if isMalicious s g then [.initCon g] else [.store g]))
  | .initCon g => (s, some [.handle (generateCON clk (getObject s g.getID g.type) g)])
  | .store g =>
    match g.verify cf.crypto with
    | .panic => (s, none)
    | .err _ => (s, some (afterStore g false))
    | .ok =>
      let s := { s with timerlist := s.timerlist ++ [clk.second] }
      match storeLocked s g with
      | (s, false) => (s, some (afterStore g false))
      | (s, true) => (s, some [.storeBl g])
  | .storeBl g => (storeBlacklist s g, some [.storeNote g])
  | .storeNote g => (storeNote cf clk s g, some (afterStore g true))
  | .sendPeers g => (sendToGossipers cf s g, some [])
  | .sendOwner g => (sendToMonitor s g, some [])
  | .arm g => ({ s with timers := s.timers ++ [g] }, some [])
  | .signBlk g => (s, some (if inBlacklist s g.payload.p0 then [] else [.sign g]))
  | .sign g =>
    match signStatement cf s g with
    | none => (s, none)
    | some (s, f) => (s, some [.handle f])
  | .conCount g => (s, some (if itemCount s g.getID g.type = 0 then [.store g] else []))
  | .fragFull g => (s, some (if itemCount s g.getID (fullTypeOf g.type) > 0 then [] else [.fragStore g]))
  | .fragStore g =>
    match readAndStore cf s g with
    | (s, before) =>
      (s, some ((if (before : Int) = cf.crypto.threshold - 1 then [.fragGen g] else []) ++
                (if (before : Int) < cf.crypto.threshold then [.sendPeers g] else [])))
  | .fragGen g =>
    match generateFULL cf clk (getObjectList s g.getID g.type) g.getTargetType with
    | none => (s, none)
    | some o => (s.emit [.generatedFull g.getID o], some [.handle o])
  | .fullBlk g => (s, some (if inBlacklist s g.payload.p0 then [] else [.fullCount g]))
  | .fullCount g => (s, some (if itemCount s g.getID g.type = 0 then [.store g] else [.fullNote]))
  | .fullNote => (noteConverge cf clk s, some [])
  | .notify n x => (notificationHandler cf n s x, some [])
  | .request n x => (requestHandler cf n s x, some [])
  | .save => (save clk s, some [])
  | .wipe => (wipeStorage s, some [])

/-- A goroutine: its stack of program points, and whether a panic on it ends the process. -/
structure Thread where
  frames : List Frame
  fatal : Bool
  deriving DecidableEq

/-- Shared state plus goroutines. -/
structure CState where
  g : GState
  threads : List Thread
  deriving DecidableEq

def CState.init : CState := ⟨GState.init, []⟩

/-- What the scheduler and the environment can do. -/
inductive CEvent where
  /-- an HTTP request arrives: a goroutine is started -/
  | recv (bytecount : Int) (o : GossipObj)
  | notify (bytecount : Int) (n : Notification)
  | request (bytecount : Int) (n : Notification)
  /-- an armed timer expires: a goroutine is started -/
  | fire (i : Nat)
  /-- the periodic timer expires: a goroutine is started -/
  | periodic
  /-- goroutine i executes one atomic action -/
  | run (i : Nat)
  deriving DecidableEq

/-- Execute the top frame of one goroutine. -/
def stepThread (cf : GConf L) (clk : Clock) (s : GState) (t : Thread) : GState × Thread :=
  match t.frames with
  | [] => (s, t)
  | f :: fs =>
    match stepFrame cf clk s f with
    | (s, some new) => (s, { t with frames := new ++ fs })
    | (s, none) => (if t.fatal then { s with crashed := true } else s, { t with frames := [] })

/-- One event. -/
def cstep (cf : GConf L) (c : CState) (e : Clock × CEvent) : CState :=
  if c.g.crashed then c else
  match e.2 with
  | .recv n o => { c with threads := c.threads ++ [⟨[.recv n o], false⟩] }
  | .notify n x => { c with threads := c.threads ++ [⟨[.notify n x], false⟩] }
  | .request n x => { c with threads := c.threads ++ [⟨[.request n x], false⟩] }
  | .fire i =>
    match c.g.timers[i]? with
    | none => c
    | some o => ⟨{ c.g with timers := c.g.timers.eraseIdx i }, c.threads ++ [⟨[.signBlk o], true⟩]⟩
  | .periodic => { c with threads := c.threads ++ [⟨[.save, .wipe], true⟩] }
  | .run i =>
    match c.threads[i]? with
    | none => c
    | some t =>
      let (g, t') := stepThread cf e.1 c.g t
      ⟨g, c.threads.set i t'⟩

/-- Execute a schedule. -/
def crun (cf : GConf L) (c : CState) (h : List (Clock × CEvent)) : CState := h.foldl (cstep cf) c

/-- States reachable under some schedule. -/
def CReach (cf : GConf L) (c : CState) : Prop := ∃ h, c = crun cf CState.init h

end CTng
