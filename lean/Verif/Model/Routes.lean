import Verif.Model.WireMonitor
/-
The routers of the four servers and what a request of the Go HTTP client ends in.
-/
set_option autoImplicit false

namespace CTng

/-- The two methods in use. -/
inductive Method where
  | get
  | post
  deriving DecidableEq

/-- The functions registered with the routers. -/
inductive Endpoint where
  /-- CA/server.go:213-234 `receive_sth` -/
  | caSTH
  /-- CA/server.go:236-263 `receive_poi` -/
  | caPOI
  /-- CA/server.go:134-210 `requestREV` -/
  | caREV
  /-- Logger/server.go:112-129 `receive_pre_cert` -/
  | loggerPrecert
  /-- Logger/server.go:46-109 `requestSTH` -/
  | loggerSTH
  /-- monitor/client-update-monitor.go:43-56 `requestupdate` -/
  | monitorUpdate
  /-- monitor/monitor.go:43-65 `handle_gossip_from_gossiper` -/
  | monitorGossip
  /-- gossiper_server.go:146-178 `Gossip_object_handler` -/
  | gossipObject
  /-- gossiper_server.go:98-144 `Gossip_request_handler` -/
  | gossipRequest
  /-- gossiper_server.go:49-96 `Gossip_notification_handler` -/
  | gossipNotification
  deriving DecidableEq

/-- One `HandleFunc(path, handler).Methods(method)`. -/
structure Route where
  method : Method
  path : Str
  handler : Endpoint
  deriving DecidableEq

/-- CA/server.go:38-55 `handleCARequests` -/
def caRoutes : List Route :=
  [⟨.post, go!"/CA/receive-sth", .caSTH⟩, ⟨.post, go!"/CA/receive-poi", .caPOI⟩, ⟨.get, go!"/ctng/v2/get-revocation", .caREV⟩]

/-- Logger/server.go:31-44 `handleLoggerRequests` -/
def loggerRoutes : List Route :=
  [⟨.post, go!"/Logger/receive-precerts", .loggerPrecert⟩, ⟨.get, go!"/ctng/v2/get-sth", .loggerSTH⟩]

/-- monitor/monitor-server.go:22-33 `handleMonitorRequests` -/
def monitorRoutes : List Route :=
  [⟨.get, go!"/monitor/get-update", .monitorUpdate⟩, ⟨.post, go!"/monitor/receive-gossip-from-gossiper", .monitorGossip⟩]

/-- gossiper_server.go:27-47 `handleRequests` -/
def gossiperRoutes : List Route :=
  [⟨.post, go!"/gossip/sth_init", .gossipObject⟩, ⟨.post, go!"/gossip/rev_init", .gossipObject⟩,
   ⟨.post, go!"/gossip/acc_init", .gossipObject⟩, ⟨.post, go!"/gossip/con_init", .gossipObject⟩,
   ⟨.post, go!"/gossip/sth_frag", .gossipObject⟩, ⟨.post, go!"/gossip/rev_frag", .gossipObject⟩,
   ⟨.post, go!"/gossip/acc_frag", .gossipObject⟩, ⟨.post, go!"/gossip/new_payload_request", .gossipRequest⟩,
   ⟨.post, go!"/gossip/new_payload_notification", .gossipNotification⟩]

/-- A path with its trailing slash removed, or one added. -/
def toggleSlash (p : Str) : Str := if p.getLast? = some 47 then p.dropLast else p ++ go!"/"

/-- What a router does with a request. -/
inductive Routed where
  | run (h : Endpoint)
  /-- 301 to the path -/
  | redirect (path : Str)
  /-- 405 -/
  | notAllowed
  /-- 404 -/
  | notFound
  deriving DecidableEq

/-- `mux.NewRouter().StrictSlash(true)` (CA/server.go:40, Logger/server.go:33, monitor/monitor-server.go:24,
gossiper_server.go:29) of gorilla/mux v1.8.0, a library: the first route whose path equals that of the request up to a
trailing slash and whose method fits; if the slash differs the request is redirected to the other form. Simplification:
the cleaning of paths with `.`, `..` or `//` before the match is not modelled, no process of the repository sends such. -/
def routeRequest (rs : List Route) (m : Method) (path : Str) : Routed :=
  match rs.find? fun r => (path = r.path ∨ path = toggleSlash r.path) ∧ m = r.method with
  | some r => if path = r.path then .run r.handler else .redirect (toggleSlash path)
  | none => if rs.any fun r => decide (path = r.path ∨ path = toggleSlash r.path) then .notAllowed else .notFound

/-- `http.Client` of net/http, a library: the path of a URL without one is "/"; a 301 is followed with GET, at most ten
times. The function that handles the request in the end, if one does. -/
def reach (rs : List Route) : Nat → Method → Str → Option Endpoint
  | 0, _, _ => none
  | n + 1, m, path =>
    match routeRequest rs m (if path = [] then go!"/" else path) with
    | .run h => some h
    | .redirect p => reach rs n .get p
    | _ => none

/-- The handler a request of the Go client reaches. -/
def arrives (rs : List Route) (m : Method) (path : Str) : Option Endpoint := reach rs 11 m path

end CTng
