import Verif.Model.Network
/-
The network of `Model/Network.lean` with gossipers that execute one request or timer at a time, each to completion: the
sequential gossiper of `Model/Gossiper.lean` in place of the concurrent one. The code does not serialise requests; this is the
restricted behaviour for which properties are proved that the concurrent network does not have. Every run of it is a run of
the concurrent network (`C35_serial_networks_are_networks`).
-/
set_option autoImplicit false

namespace CTng

/-- State of a serial network. -/
structure SNet where
  node : Str → GState
  flight : List Msg

def SNet.init : SNet := ⟨fun _ => GState.init, []⟩

variable {L : Lib}

/-- gossiper_server.go:27-47: as `routeEvent` -/
def routeOp (cf : GConf L) (m : Msg) : Option GOp :=
  match m.body with
  | .obj o => if m.route ∈ objRoutes then some (.recv (cf.jsonLen o) o) else none
  | .notif n =>
    if m.route = go!"/gossip/new_payload_notification" then some (.notify (cf.notifLen n) n)
    else if m.route = go!"/gossip/new_payload_request" then some (.request (cf.notifLen n) n)
    else none

/-- One event at a gossiper, executed to completion; what it posts is under way afterwards. -/
def snodeStep (N : NetConf L) (s : SNet) (x : Str) (e : Clock × GOp) : SNet :=
  if x ∈ N.ids then
    let g := s.node x
    let g' := gstep (N.conf x) g e
    { node := fun y => if y = x then g' else s.node y
      flight := s.flight ++ postsOf (g'.out.drop g.out.length) }
  else s

/-- What can happen: a request from outside or a timer at gossiper `x`, or the arrival of the i-th request under way. -/
inductive SEvent where
  | node (x : Str) (e : Clock × GOp)
  | deliver (i : Nat) (clk : Clock)

def sstep (N : NetConf L) (s : SNet) : SEvent → SNet
  | .node x e => snodeStep N s x e
  | .deliver i clk =>
    match s.flight[i]? with
    | none => s
    | some m =>
      if m.dst ∈ N.ids then
        let s := { s with flight := s.flight.eraseIdx i }
        match routeOp (N.conf m.dst) m with
        | none => s
        | some e => snodeStep N s m.dst (clk, e)
      else s

/-- Execute a history. -/
def srun (N : NetConf L) (s : SNet) (h : List SEvent) : SNet := h.foldl (sstep N) s

/-- States reachable from start-up. -/
def SReach (N : NetConf L) (s : SNet) : Prop := ∃ h, s = srun N SNet.init h

end CTng
