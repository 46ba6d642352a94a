import Verif.Model.GossiperConc
/-
A network of gossipers: the concurrent gossipers of `Model/GossiperConc.lean` and the HTTP requests between them.

Simplifications: a POST that was started is delivered at some later time, once and unchanged, in any order (transport errors,
which the code only prints, are not modelled; the random delay of gossiper_server.go:505-510 is part of the order). Posts to
addresses that are not gossipers of the network stay in flight for ever and are ignored. Everybody else (CAs, loggers,
monitors, attackers) may post anything to any gossiper at any time.
-/
set_option autoImplicit false

namespace CTng

/-- A request under way. -/
structure Msg where
  dst : Str
  route : Str
  body : Body
  deriving DecidableEq

/-- The gossipers of a network by address, and their configurations. -/
structure NetConf (L : Lib) where
  ids : List Str
  conf : Str → GConf L

/-- Network state. -/
structure Net where
  node : Str → CState
  flight : List Msg

def Net.init : Net := ⟨fun _ => CState.init, []⟩

/-- gossiper_server.go:31-37: the routes of `Gossip_object_handler` -/
def objRoutes : List Str :=
  [go!"/gossip/sth_init", go!"/gossip/rev_init", go!"/gossip/acc_init", go!"/gossip/con_init",
   go!"/gossip/sth_frag", go!"/gossip/rev_frag", go!"/gossip/acc_frag"]

variable {L : Lib}

/-- gossiper_server.go:27-47: what a request between gossipers starts at its destination. The content length is the length of
the JSON text that was posted (gossiper_server.go:78, 119, 466, 497). Other combinations of route and body are not posted by
gossipers. -/
def routeEvent (cf : GConf L) (m : Msg) : Option CEvent :=
  match m.body with
  | .obj o => if m.route ∈ objRoutes then some (.recv (cf.jsonLen o) o) else none
  | .notif n =>
    if m.route = go!"/gossip/new_payload_notification" then some (.notify (cf.notifLen n) n)
    else if m.route = go!"/gossip/new_payload_request" then some (.request (cf.notifLen n) n)
    else none

/-- The posts among new outputs. -/
def postsOf (out : List Out) : List Msg :=
  out.filterMap fun
    | .peer url route body => some ⟨url, route, body⟩
    | _ => none

/-- One event at a gossiper; what it posts is under way afterwards. -/
def nodeStep (N : NetConf L) (s : Net) (x : Str) (e : Clock × CEvent) : Net :=
  if x ∈ N.ids then
    let c := s.node x
    let c' := cstep (N.conf x) c e
    { node := fun y => if y = x then c' else s.node y
      flight := s.flight ++ postsOf (c'.g.out.drop c.g.out.length) }
  else s

/-- What can happen. -/
inductive NEvent where
  /-- a request from outside, a timer, or the scheduler at gossiper `x` -/
  | node (x : Str) (e : Clock × CEvent)
  /-- the i-th request under way arrives -/
  | deliver (i : Nat) (clk : Clock)

def nstep (N : NetConf L) (s : Net) : NEvent → Net
  | .node x e => nodeStep N s x e
  | .deliver i clk =>
    match s.flight[i]? with
    | none => s
    | some m =>
      if m.dst ∈ N.ids then
        let s := { s with flight := s.flight.eraseIdx i }
        match routeEvent (N.conf m.dst) m with
        | none => s
        | some e => nodeStep N s m.dst (clk, e)
      else s

/-- Execute a history. -/
def nrun (N : NetConf L) (s : Net) (h : List NEvent) : Net := h.foldl (nstep N) s

/-- States reachable from start-up. -/
def NReach (N : NetConf L) (s : Net) : Prop := ∃ h, s = nrun N Net.init h

end CTng
