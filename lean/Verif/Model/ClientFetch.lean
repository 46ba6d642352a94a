import Verif.Model.Client
import Verif.Model.WireMonitor
/-
Model of the fetching functions of client/client.go that are not in `Model/WireMonitor.lean`.

Simplification: `client.Get(url)` is given by its outcome, an error or a response with the state of its TLS connection, if
there is one. Redirects are part of the outcome.
-/
set_option autoImplicit false

namespace CTng
namespace Client

/-- The outcome of `client.Get`. `PeerCertificates` is a list of pointers; `none` in it is nil. -/
inductive GetRes where
  | failed
  /-- a response over plain HTTP: `res.TLS` is nil -/
  | plain
  /-- a response over TLS -/
  | tls (peerCertificates : List (Option Cert))

/-- How a call of `FetchCertificate` ends. -/
inductive FetchRes where
  | ok (c : Cert)
  | err
  | panic
  deriving DecidableEq

/-- x509.Certificate{} -/
def zeroCert : Cert := ⟨[], [], [], [], [], [], [], [], [], 0, false, [], [], []⟩

/-- client/client.go:48-81 `FetchCertificate`. The condition is `len(certificates) == 0 && certificates[0] != nil`: its second half
is an index out of range whenever it is evaluated. -/
def fetchCertificate : GetRes → FetchRes
  | .failed => .err
  | .plain => .ok zeroCert
  | .tls certs =>
    match certs with
    | [] => .panic
    | none :: _ => .panic
    | some c :: _ => .ok c

end Client

namespace Wire

/-- client/client.go:36-45 `FetchGossip` on the reply; `none` is an error. -/
def fetchGossip (r : Reply) : Option (List GossipObj) :=
  match fetchReply r with
  | none => none
  | some t => if (unmarshal [] (dList .zero dGossip) t).2 then some (unmarshal [] (dList .zero dGossip) t).1 else none

end Wire
end CTng
