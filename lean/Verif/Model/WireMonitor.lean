import Verif.Model.JsonIndent
import Verif.Model.WireNet
import Verif.Model.Monitor
/-
A monitor that exchanges bytes: the monitor of `Model/Monitor.lean` with the bodies of requests and answers and its client
update files as they are on the wire and on the disk, and the client's side of fetching an update.

Simplifications: files are written without error and nothing else writes them; the text of error messages is not modelled.
-/
set_option autoImplicit false

namespace CTng
namespace Wire
open Mon

/-- What happens at a monitor. -/
inductive BMonEvent where
  /-- a POST on the gossiper's route, with any bytes -/
  | gossip (body : Str)
  | query (clk : Clock)
  /-- the i-th query under way gets an answer with any bytes, or none (connection refused, unreadable answer) -/
  | answer (i : Nat) (body : Option Str)
  | wait (i : Nat) (clk : Clock)
  | crv (i : Nat)
  | finish (clk : Clock)

/-- monitor/monitor.go:43-47, 149-158 and 250-268. Undecodable gossip is answered with an error, but the handler goes on with
the partly decoded object. Undecodable answers to queries count as no answer. -/
def BMonEvent.read : BMonEvent → MonEvent
  | .gossip body => .gossip (some (decode .zero dGossip body).1)
  | .query clk => .query clk
  | .answer i none => .answer i .failed
  | .answer i (some body) =>
    .answer i (if (unmarshal .zero dGossip body).2 then .obj (unmarshal .zero dGossip body).1 else .failed)
  | .wait i clk => .wait i clk
  | .crv i => .crv i
  | .finish clk => .finish clk

/-- The status of the reply to a POST on the gossiper's route: monitor/monitor.go:47-50 (and 53, where 200 is set if nothing
was set before) -/
def gossipStatus (body : Str) : Nat := if (decode .zero dGossip body).2 then 200 else 400

/-- The clock readings of an event. -/
def BMonEvent.clock : BMonEvent → Option Clock
  | .query clk | .wait _ clk | .finish clk => some clk
  | _ => none

/-- Files by path. -/
abbrev Files := GoMap Str Str

/-- monitor/types.go:117-119 and monitor/client-update-monitor.go:50 -/
def updatePath (dir period : Str) : Str := dir ++ go!"/Period_" ++ period ++ go!"/ClientUpdate.json"

/-- util/IO.go:49 with monitor/types.go:121: the text of a client update file -/
def fileText (u : ClientUpdate) : Str := Json.marshalIndent [] (go!"  ") (updateJson u)

/-- A monitor and its client update files. -/
structure BMon where
  m : MonState
  disk : Files

def BMon.init : BMon := ⟨initMonitor, .empty⟩

variable {L : Lib} (X : XLib)

/-- One event. At the end of a period the update is generated and written (monitor/monitor.go:460-468, monitor/types.go:114-121). -/
def bmonStep (c : MonConf L) (dir : Str) (s : BMon) (e : BMonEvent) : Option BMon :=
  match monStep X c s.m e.read with
  | none => none
  | some m =>
    some ⟨m, match e with
      | .finish clk =>
        s.disk.set (updatePath dir (periodIO c clk)) (fileText (generateUpdate c clk (Mon.wipeStorage clk (cleanConflicting s.m))))
      | _ => s.disk⟩

def bmonRun (c : MonConf L) (dir : Str) (s : BMon) : List BMonEvent → Option BMon
  | [] => some s
  | e :: t =>
    match bmonStep X c dir s e with
    | none => none
    | some s' => bmonRun c dir s' t

/-- monitor/monitor.go:343-361: the request that carries an object to the gossiper; an object of another type goes to the
path "". -/
def toGossiper (url : Str) (g : GossipObj) : Packet :=
  ⟨url, match g.type with
    | .ACC_INIT => go!"/gossip/acc_init"
    | .STH_INIT => go!"/gossip/sth_init"
    | .REV_INIT => go!"/gossip/rev_init"
    | _ => [], Json.render (gossipJson g)⟩

/-- client/types.go:102-112 `LoadUpdate` on the text of the file; `none` is `log.Fatal`. -/
def loadUpdate (file : Option Str) : Option ClientUpdate :=
  match file with
  | none => none
  | some t => if (unmarshal updateZero dUpdate t).2 then some (unmarshal updateZero dUpdate t).1 else none

/-- monitor/client-update-monitor.go:29-41 `PrepareClientUpdate`; `none` is a nil pointer. -/
def prepareClientUpdate (disk : Files) (path : Str) : Option ClientUpdate :=
  match disk.get path with
  | none => none
  | some t => if (unmarshal updateZero dUpdate t).2 then some (unmarshal updateZero dUpdate t).1 else none

/-- What a client gets for a request. -/
inductive Reply where
  /-- the handler panicked: the connection is closed without a reply -/
  | closed
  /-- a status and a body (the body of an error is not modelled) -/
  | status (code : Nat) (body : Str)
  deriving DecidableEq

/-- monitor/client-update-monitor.go:43-56 `requestupdate` on the body of the request. An undecodable body is answered with 400,
and the handler goes on. A missing or unreadable file is a nil pointer, whose `Period` is printed. -/
def requestUpdate (dir : Str) (disk : Files) (body : Str) : Reply :=
  match prepareClientUpdate disk (updatePath dir (decode [] dStr body).1) with
  | none => .closed
  | some u =>
    if (decode [] dStr body).2 then .status 200 (encodeLine (.str (b64enc (Json.render (updateJson u)))))
    else .status 400 []

/-- client/client.go:83-99 `fetch` on the reply to its request; `none` is an error. -/
def fetchReply : Reply → Option Str
  | .closed => none
  | .status code body => if code = 200 then some body else none

/-- client/client.go:24-33 `FetchClientUpdate` on the reply; `none` is an error. -/
def fetchClientUpdate (r : Reply) : Option ClientUpdate :=
  match fetchReply r with
  | none => none
  | some t => if (unmarshal updateZero dUpdate t).2 then some (unmarshal updateZero dUpdate t).1 else none

/-- client/parser.go:45: the value of a key of a `map[string]any`; the last of several members of that name counts. -/
def mapValue (k : Str) (ms : List (Str × Json)) : Option Json := (ms.reverse.find? fun m => m.1 = k).map (·.2)

/-- client/parser.go:31-50 `GetRootHash`; `none` is the panic of the type assertion. (A number too large for a float64 is an
error in Go and is not one here.) -/
def getRootHash : List GossipObj → Option (List Str)
  | [] => some []
  | g :: t =>
    match Json.parse g.payload.p1 with
    | some (.obj ms) =>
      match mapValue (go!"RootHash") ms with
      | some (.str h) => (getRootHash t).map fun r => h :: r
      | _ => none
    | some .null => none
    | _ => some []

end Wire
end CTng
