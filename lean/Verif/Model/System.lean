import Verif.Model.Network
import Verif.Model.Monitor
/-
Gossipers and monitors together: the network of `Model/Network.lean`, the monitors of `Model/Monitor.lean`, and the posts between
a gossiper and its owner. A monitor is named by the address of its gossiper (monitor/types.go:58-73 `Gossiper_URL`,
gossiper/types.go `Owner_URL`).

Simplifications: as between gossipers, a post that was started arrives once and unchanged at some later time, in any order
(monitor/monitor.go:361-367 and gossiper/gossiper_server.go:534-560 only print transport errors; the JSON round trip is the subject
of C80). Everybody else may post anything to any gossiper or monitor at any time, and what loggers and CAs answer is arbitrary.
-/
set_option autoImplicit false

namespace CTng

/-- The gossipers, and the monitor of each. -/
structure SysConf (L : Lib) where
  net : NetConf L
  mon : Str → MonConf L

/-- A post under way between gossiper `x` and its monitor. -/
inductive Post where
  /-- gossiper_server.go:534-560 `Send_to_Monitor` -/
  | toMonitor (x : Str) (o : GossipObj)
  /-- monitor/monitor.go:343-369 `Send_to_gossiper` -/
  | toGossiper (x : Str) (o : GossipObj)
  deriving DecidableEq

/-- State of everything. `mon x = none`: the process of the monitor has died. -/
structure Sys where
  net : Net
  mon : Str → Option MonState
  posts : List Post

def Sys.init : Sys := ⟨Net.init, fun _ => some initMonitor, []⟩

variable {L : Lib} (X : XLib) (S : SysConf L)

/-- The posts to the owner among new outputs. -/
def ownersOf (out : List Out) : List GossipObj :=
  out.filterMap fun
    | .owner o => some o
    | _ => none

/-- The gossiper at which an event of the network happens. -/
def NEvent.target (s : Net) : NEvent → Option Str
  | .node x _ => some x
  | .deliver i _ => (s.flight[i]?).map (·.dst)

/-- An event of the gossiper network; what the gossiper posts to its owner is under way afterwards. -/
def sysNet (s : Sys) (e : NEvent) : Sys :=
  let n := nstep S.net s.net e
  { s with
    net := n
    posts := s.posts ++
      match e.target s.net with
      | none => []
      | some x => (ownersOf ((n.node x).g.out.drop (s.net.node x).g.out.length)).map (.toMonitor x) }

/-- An event at a monitor; what the monitor posts to its gossiper is under way afterwards. -/
def sysMon (s : Sys) (x : Str) (e : MonEvent) : Sys :=
  match s.mon x with
  | none => s
  | some m =>
    match monStep X (S.mon x) m e with
    | none => { s with mon := fun y => if y = x then none else s.mon y }
    | some m' =>
      { s with
        mon := fun y => if y = x then some m' else s.mon y
        posts := s.posts ++ (m'.sent.drop m.sent.length).map (.toGossiper x) }

/-- What can happen. -/
inductive SysEvent where
  /-- anything in the gossiper network, including posts from outside -/
  | net (e : NEvent)
  /-- anything at the monitor of gossiper `x`, including posts from outside -/
  | mon (x : Str) (e : MonEvent)
  /-- the i-th post under way arrives -/
  | arrive (i : Nat) (clk : Clock)

def sysStep (s : Sys) : SysEvent → Sys
  | .net e => sysNet S s e
  | .mon x e => sysMon X S s x e
  | .arrive i clk =>
    match s.posts[i]? with
    | none => s
    | some p =>
      let s := { s with posts := s.posts.eraseIdx i }
      match p with
      | .toMonitor x o => sysMon X S s x (.gossip (some o))
      | .toGossiper x o => sysNet S s (.node x (clk, .recv ((S.net.conf x).jsonLen o) o))

/-- Execute a history. -/
def sysRun (s : Sys) (h : List SysEvent) : Sys := h.foldl (sysStep X S) s

/-- States reachable from start-up. -/
def SysReach (s : Sys) : Prop := ∃ h, s = sysRun X S Sys.init h

end CTng
