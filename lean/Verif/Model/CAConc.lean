import Verif.Model.CA
/-
Several proofs of inclusion handled at once by a CA: `receive_poi` (CA/server.go:236-263) reads `STH_storage`, looks the
certificate up, and decodes and rewrites its extension (CA/types.go:127-142) without a lock, on the certificate of the pool
itself. Simplifications: the span between two ends of periods, in which the pool is not replaced; each read and each write
is a single step. The locked line 260 then puts the pointer back where it came from (the key index only grows at the end).
-/
set_option autoImplicit false

namespace CTng

/-- CA/server.go:236-263 with CA/types.go:127-142: where the handler of one proof is; `i` is the place of the certificate in
the pool (the pointer). -/
inductive PoiAt where
  /-- CA/server.go:247: about to read the tree head -/
  | arrived (p : POI)
  /-- CA/server.go:255: about to look the certificate up -/
  | read (n : LoggerInfo)
  /-- CA/types.go:128-133: about to decode the extension -/
  | found (i : Nat) (n : LoggerInfo)
  /-- CA/types.go:136-140: about to write the extension -/
  | decoded (i : Nat) (n : LoggerInfo) (ext : CTngExt)
  /-- answered -/
  | done (i : Option Nat) (n : LoggerInfo)

/-- CA/types.go:21-51: the CA and the handlers of proofs. -/
structure CAConc where
  s : CAState
  hs : List PoiAt

variable (X : XLib)

/-- CA/types.go:135-140: the extension replaced in place -/
def Cert.writeExt (x : Cert) (ext : CTngExt) : Cert :=
  { x with extensions := x.extensions.map fun e => if e.1 = oidCTng then (e.1, X.encExt ext) else e }

/-- CA/server.go:246-262 with CA/types.go:127-142: one step of a handler. -/
def poiStep (s : CAState) : PoiAt → CAState × PoiAt
  | .arrived p => (s, .read ⟨readObj s.sthStorage p.loggerID, p⟩)
  | .read n =>
    match CertPool.idx s.pool.bySubjectKeyId n.poi.subjectKeyId with
    | [] => (s, .done none n)
    | i :: _ => (s, .found i n)
  | .found i n =>
    match s.pool.certs[i]? with
    | none => (s, .done none n)
    | some x =>
      let ext := x.parseExt X
      if ext.loggers.any (fun l => l.sth.signer = n.sth.signer) then (s, .done (some i) n)
      else (s, .decoded i n { ext with loggers := ext.loggers ++ [n] })
  | .decoded i n ext =>
    match s.pool.certs[i]? with
    | none => (s, .done none n)
    | some x => ({ s with pool := { s.pool with certs := s.pool.certs.set i (x.writeExt X ext) } }, .done (some i) n)
  | .done i n => (s, .done i n)

/-- A tree head (CA/server.go:213-233, one locked write), a request for a revocation, a proof, or a step of a handler. -/
inductive CAConcEvent where
  | sth (g : GossipObj)
  | request (t : Instant)
  | poi (p : POI)
  | run (k : Nat)

variable {L : Lib}

/-- The routes of CA/server.go:38-55 during a period, and single steps of the handlers of proofs. -/
def caConcStep (c : CAConf L) (m : CAConc) : CAConcEvent → CAConc
  | .sth g => { m with s := caReceiveSTH c g m.s }
  | .request t => { m with s := (requestREV c t m.s).2 }
  | .poi p => { m with hs := m.hs ++ [.arrived p] }
  | .run k =>
    match m.hs[k]? with
    | none => m
    | some h => { m with s := (poiStep X m.s h).1, hs := m.hs.set k (poiStep X m.s h).2 }

/-- A schedule of such events (CA/server.go:38-55). -/
def caConcRun (c : CAConf L) (m : CAConc) (h : List CAConcEvent) : CAConc := h.foldl (caConcStep X c) m

end CTng
