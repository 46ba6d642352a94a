import Verif.Model.Logger
/- The round of a logger over a network in which posts can fail (Logger/server.go:131-180, 207-252). -/
set_option autoImplicit false

namespace CTng
variable {L : Lib} (X : XLib)

/-- Which addresses answer a POST while a function runs; `c.Client.Post` to any other returns a nil response and an error
(Logger/server.go:138, 154). Simplification: an address answers all posts of one call or none. -/
abbrev Reach := Str → Bool

/-- Logger/server.go:131-145 `Send_STH_to_CA` for each CA of Logger/server.go:239-241: a failed POST is printed, the loop goes
on. What arrives. -/
def sendSTHsVia (up : Reach) (cas : List Str) (g : GossipObj) : List (Str × GossipObj) :=
  (cas.filter up).map fun ca => (ca, g)

/-- Logger/server.go:148-180 `Send_POIs_to_CAs` with `Send_POI_to_CA`: stops at the first proof that does not verify; `none`
is the nil dereference of a certificate that is not in the pool, or of `resp.Body` after a failed POST (line 158). -/
def sendPOIsVia (up : Reach) (sha : Str → Str) (pool : CertPool) (root : Str) : List POI → Option (List (Str × POI))
  | [] => some []
  | p :: t =>
    if p.subjectKeyId.length ≠ 0 then
      match pool.getBySKI p.subjectKeyId with
      | .ok (some cert) =>
        if verifyPOI sha root p.poi cert then
          if up p.issuer then (sendPOIsVia up sha pool root t).map ((p.issuer, p) :: ·) else none
        else some []
      | _ => none
    else sendPOIsVia up sha pool root t

/-- Logger/server.go:207-252 (`f1` of `PeriodicTask`) over such a network. `none` is a panic, which ends the process. -/
def loggerRoundVia (c : LoggerConf L) (up : Reach) (t : Instant) (s : LoggerState) : Option LoggerState :=
  let certs := s.pool.getCerts
  match buildMerkle X c t certs (loggerNextNum t) with
  | none => none
  | some b =>
    match certs with
    | [] => none
    | c0 :: _ =>
      match buildMerkle X c t (certs ++ [c0]) (loggerNextNum t) with
      | none => none
      | some f =>
        match sendPOIsVia up L.sha256 s.pool b.root b.pois with
        | none => none
        | some sent =>
          some { s with onlinePeriod := s.onlinePeriod + 1
                        sthStorage := s.sthStorage.set (loggerNextPeriod t) b.sth
                        sthStorageFake := s.sthStorageFake.set (loggerNextPeriod t) f.sth
                        sentSTHs := s.sentSTHs ++ sendSTHsVia up c.allCAs b.sth
                        sentPOIs := s.sentPOIs ++ sent
                        onlineDuration := if s.requestCount > 0 then s.onlineDuration + 1 else s.onlineDuration
                        requestCount := 0
                        pool := CertPool.new }

/-- The routes of Logger/server.go:31-44 and the timer; each event with the addresses that answer meanwhile. -/
def loggerStepVia (c : LoggerConf L) (s : LoggerState) : LoggerEvent × Reach → Option LoggerState
  | (.precert b, _) => loggerReceive X b s
  | (.finish t, up) => loggerRoundVia X c up t s
  | (.request t, _) => some (requestSTH c t s).2

def loggerRunVia (c : LoggerConf L) (s : LoggerState) : List (LoggerEvent × Reach) → Option LoggerState
  | [] => some s
  | e :: t =>
    match loggerStepVia X c s e with
    | none => none
    | some s' => loggerRunVia c s' t

end CTng
