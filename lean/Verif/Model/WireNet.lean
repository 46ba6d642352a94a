import Verif.Model.Wire
import Verif.Model.Network
/-
A network of gossipers that exchange bytes: the network of `Model/Network.lean` with the HTTP requests as they are on the wire.
Every body is JSON text written by one side and decoded by the other (gossiper_server.go:50-62, 97-110, 146-159, 449-533).

Simplifications: as in `Model/Network.lean`; paths are compared as they are (the redirects of `StrictSlash` are not modelled);
every request is a POST.
-/
set_option autoImplicit false

namespace CTng
namespace Wire

/-- gossiper_server.go:78, 119, 450, 466, 475: the JSON text of a request body -/
def bodyText : Body → Str
  | .obj o => Json.render (gossipJson o)
  | .notif n => Json.render (notifJson n)

/-- gossiper_server.go:28-39 with 50-62, 97-110 and 146-156: what a POST with this path, content length and body starts; `none` is
an answer 404 (no such path) or 400 (decoding failed), before anything is counted. -/
def requestEvent (route : Str) (len : Int) (body : Str) : Option CEvent :=
  if route ∈ objRoutes then
    if (decode .zero dGossip body).2 then some (.recv len (decode .zero dGossip body).1) else none
  else if route = go!"/gossip/new_payload_request" then
    if (decode notifZero dNotif body).2 then some (.request len (decode notifZero dNotif body).1) else none
  else if route = go!"/gossip/new_payload_notification" then
    if (decode notifZero dNotif body).2 then some (.notify len (decode notifZero dNotif body).1) else none
  else none

/-- A request on the wire. -/
structure Packet where
  dst : Str
  route : Str
  body : Str
  deriving DecidableEq

/-- gossiper_server.go:83, 125, 510: bytes.NewBuffer(msg) -/
def packet (m : Msg) : Packet := ⟨m.dst, m.route, bodyText m.body⟩

/-- Network state. -/
structure BNet where
  node : Str → CState
  flight : List Packet

def BNet.init : BNet := ⟨fun _ => CState.init, []⟩

/-- What happens at a gossiper without a request. -/
inductive Inner where
  | fire (i : Nat)
  | periodic
  | run (i : Nat)

def Inner.event : Inner → CEvent
  | .fire i => .fire i
  | .periodic => .periodic
  | .run i => .run i

/-- What can happen. -/
inductive BEvent where
  /-- a POST from outside, with any path, any claimed content length (−1: unknown) and any bytes -/
  | post (x : Str) (clk : Clock) (route : Str) (len : Int) (body : Str)
  /-- a timer or the scheduler at gossiper `x` -/
  | node (x : Str) (clk : Clock) (e : Inner)
  /-- the i-th request under way arrives -/
  | deliver (i : Nat) (clk : Clock)

def BEvent.clock : BEvent → Clock
  | .post _ clk _ _ _ | .node _ clk _ | .deliver _ clk => clk

variable {L : Lib}

/-- One event at a gossiper; the bytes it posts are under way afterwards. -/
def bnodeStep (N : NetConf L) (s : BNet) (x : Str) (e : Clock × CEvent) : BNet :=
  if x ∈ N.ids then
    let c := s.node x
    let c' := cstep (N.conf x) c e
    { node := fun y => if y = x then c' else s.node y
      flight := s.flight ++ (postsOf (c'.g.out.drop c.g.out.length)).map packet }
  else s

/-- A request at a gossiper. -/
def brequest (N : NetConf L) (s : BNet) (x : Str) (clk : Clock) (route : Str) (len : Int) (body : Str) : BNet :=
  match requestEvent route len body with
  | none => s
  | some e => bnodeStep N s x (clk, e)

def bstep (N : NetConf L) (s : BNet) : BEvent → BNet
  | .post x clk route len body => brequest N s x clk route len body
  | .node x clk e => bnodeStep N s x (clk, e.event)
  | .deliver i clk =>
    match s.flight[i]? with
    | none => s
    | some p =>
      if p.dst ∈ N.ids then brequest N { s with flight := s.flight.eraseIdx i } p.dst clk p.route p.body.length p.body
      else s

/-- Execute a history. -/
def brun (N : NetConf L) (s : BNet) (h : List BEvent) : BNet := h.foldl (bstep N) s

end Wire
end CTng
