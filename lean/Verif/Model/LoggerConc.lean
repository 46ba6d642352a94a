import Verif.Model.Delivery
/-
A logger whose end of period runs beside the requests: `f1` (Logger/server.go:207-252) takes the time of one POST per CA and
per certificate, and only `Request_Count` is locked in it. Simplification: adding a certificate to the pool, copying the
pool, looking a certificate up and replacing the pool are single steps (the code shares the pool without a lock there).
-/
set_option autoImplicit false

namespace CTng

/-- Where the goroutine of one end of period is (Logger/server.go:207-252). -/
inductive RoundAt where
  /-- Logger/server.go:208-227: about to copy the pool -/
  | list
  /-- Logger/server.go:229-232: about to copy the pool again, for the other tree head -/
  | fake (t : Instant) (certs : List Cert) (b : Built)
  /-- Logger/server.go:235-236: about to store the tree heads -/
  | store (t : Instant) (certs : List Cert) (b f : Built)
  /-- Logger/server.go:239-241: the CAs that have not got the tree head yet -/
  | sths (b : Built) (todo : List Str)
  /-- Logger/server.go:243 with 161-180: the proofs not yet posted -/
  | pois (b : Built) (todo : List POI)
  /-- Logger/server.go:244-249: the locked part -/
  | count
  /-- Logger/server.go:251: about to replace the pool -/
  | reset
  | done

/-- The goroutine has copied the pool (Logger/server.go:224) and not yet replaced it (line 251). -/
def RoundAt.window : RoundAt → Bool
  | .list | .done => false
  | _ => true

/-- Logger/Types.go:32-56: the logger, the goroutines of its ends of periods (Logger/server.go:253), the certificates under each tree head stored so far, and whether the
process has ended. `trees` is not in the code. -/
structure LogConc where
  s : LoggerState
  rounds : List RoundAt
  trees : List (List Cert × GossipObj)
  dead : Bool

/-- Logger/Types.go:93-133 -/
def LogConc.init : LogConc := ⟨initLogger, [], [], false⟩

variable {L : Lib} (X : XLib)

/-- Logger/server.go:207-252: one step of the goroutine of an end of period at the instant `t`, with the addresses that answer now. `none` is a panic. -/
def roundStep (c : LoggerConf L) (t : Instant) (up : Reach) (s : LoggerState) :
    RoundAt → Option (LoggerState × List (List Cert × GossipObj) × RoundAt)
  | .list =>
    let certs := s.pool.getCerts
    match buildMerkle X c t certs (loggerNextNum t) with
    | none => none
    | some b => some ({ s with onlinePeriod := s.onlinePeriod + 1 }, [], .fake t certs b)
  | .fake t0 certs b =>
    match s.pool.getCerts with
    | [] => none
    | c0 :: r =>
      match buildMerkle X c t (c0 :: r ++ [c0]) (loggerNextNum t0) with
      | none => none
      | some f => some (s, [], .store t0 certs b f)
  | .store t0 certs b f =>
    some ({ s with sthStorage := s.sthStorage.set (loggerNextPeriod t0) b.sth
                   sthStorageFake := s.sthStorageFake.set (loggerNextPeriod t0) f.sth }, [(certs, b.sth)], .sths b c.allCAs)
  | .sths b [] => some (s, [], .pois b b.pois)
  | .sths b (ca :: r) =>
    some (if up ca then { s with sentSTHs := s.sentSTHs ++ [(ca, b.sth)] } else s, [], .sths b r)
  | .pois _ [] => some (s, [], .count)
  | .pois b (p :: r) =>
    if p.subjectKeyId.length ≠ 0 then
      match s.pool.getBySKI p.subjectKeyId with
      | .ok (some cert) =>
        if verifyPOI L.sha256 b.root p.poi cert then
          if up p.issuer then some ({ s with sentPOIs := s.sentPOIs ++ [(p.issuer, p)] }, [], .pois b r) else none
        else some (s, [], .count)
      | _ => none
    else some (s, [], .pois b r)
  | .count =>
    some ({ s with onlineDuration := if s.requestCount > 0 then s.onlineDuration + 1 else s.onlineDuration
                   requestCount := 0 }, [], .reset)
  | .reset => some ({ s with pool := CertPool.new }, [], .done)
  | .done => some (s, [], .done)

/-- A request, the timer of the end of a period (Logger/server.go:253), or a step of a goroutine it has started. -/
inductive LogConcEvent where
  | precert (body : Str)
  | request (t : Instant)
  | timer
  | run (i : Nat) (t : Instant) (up : Reach)

/-- The routes of Logger/server.go:31-44, the timer of line 253, one step of a goroutine it has started. A panic in `f1` and
`log.Fatalf` (CA/ca.go:197-203) end the process. -/
def logConcStep (c : LoggerConf L) (m : LogConc) (e : LogConcEvent) : LogConc :=
  if m.dead then m else
  match e with
  | .precert b =>
    match loggerReceive X b m.s with
    | none => { m with dead := true }
    | some s => { m with s := s }
  | .request t => { m with s := (requestSTH c t m.s).2 }
  | .timer => { m with rounds := m.rounds ++ [.list] }
  | .run i t up =>
    match m.rounds[i]? with
    | none => m
    | some r =>
      match roundStep X c t up m.s r with
      | none => { m with dead := true }
      | some (s, new, r') => { m with s := s, rounds := m.rounds.set i r', trees := m.trees ++ new }

/-- A schedule of such events (Logger/server.go:31-44, 201-254). -/
def logConcRun (c : LoggerConf L) (m : LogConc) (h : List LogConcEvent) : LogConc := h.foldl (logConcStep X c) m

end CTng
