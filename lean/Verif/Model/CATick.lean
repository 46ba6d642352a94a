import Verif.Model.CA
/-
Rounds of a CA in single steps: `PeriodicTask` (CA/server.go:337-439) arms the next tick before it does anything else, reads
the counter as the first number of the subjects, makes the keys and the certificates one by one, puts each into the pool and
posts it, and only then arms the end of its round (f1). Nothing keeps two rounds apart, so any number of goroutines may be
under way. Simplifications: each read or write of a field of the context is a single step; a handler of a tree head, a proof
or a request is a single step (for proofs see Model/CAConc.lean); f1 up to its last line is a single step. `CurrentKeyPool`,
which only `SaveToStorage` reads (Model/CAKeys.lean), is left out.
-/
set_option autoImplicit false

namespace CTng

/-- CA/server.go:337-439 with CA/ca.go:19-67, 180-189: where the goroutine of one round is. -/
inductive TickAt where
  /-- CA/server.go:344: about to wipe the tree heads -/
  | begun
  /-- CA/server.go:353: about to read the counter as the offset of the subjects -/
  | wiped
  /-- CA/ca.go:20: the keys are there; about to read the counter as the id of the next certificate -/
  | rid (pub : Nat → Str) (off : Nat) (certs : List Cert)
  /-- CA/ca.go:65: about to step the counter (and to sign) -/
  | bump (pub : Nat → Str) (off rid : Nat) (certs : List Cert)
  /-- CA/server.go:367: about to put certificate `k` into the pool -/
  | add (certs : List Cert) (k : Nat)
  /-- CA/server.go:369: about to post certificate `k` -/
  | post (certs : List Cert) (k : Nat)
  /-- CA/server.go:438: f1 armed -/
  | armed (certs : List Cert)
  /-- CA/server.go:436: f1 about to replace the pool -/
  | reset (certs : List Cert)
  /-- the round is over -/
  | done (certs : List Cert)

/-- CA/types.go:21-51: the CA and the goroutines of its rounds. `made` records the certificates signed so far, in order. -/
structure CATicks where
  s : CAState
  gs : List TickAt
  made : List Cert
  dead : Bool

/-- CA/ca.go:184: the loop over the subjects goes on or is over -/
def nextMade (n : Nat) (pub : Nat → Str) (off : Nat) (certs : List Cert) : TickAt :=
  if certs.length < n then .rid pub off certs else .add certs 0

/-- CA/server.go:365: the loop over the certificates goes on or is over -/
def nextAdd (certs : List Cert) (k : Nat) : TickAt := if k < certs.length then .add certs k else .armed certs

variable {L : Lib} (X : XLib)

/-- CA/server.go:344-439 and CA/ca.go:20-66: one step of a round. `pub` are the keys made if the step makes keys, `t` the
time and `pos` the random positions if it is f1. The middle component are the certificates signed by the step; `none` is a
panic. -/
def tickStep (c : CAConf L) (root : Cert) (pub : Nat → Str) (t : Instant) (pos : List Nat) (s : CAState) :
    TickAt → Option (CAState × List Cert × TickAt)
  | .begun => some ({ s with sthStorage := .empty }, [], .wiped)
  | .wiped =>
    if 0 < c.certPerPeriod then some (s, [], .rid pub s.certCounter [])
    else some (s, [], .armed [])
  | .rid pub off certs => some (s, [], .bump pub off s.certCounter certs)
  | .bump pub off rid certs =>
    let x := signCertificate X L.sha256 (genratePreCert X rid c.signer (dummySubject certs.length off) false).1 root
      (pub certs.length)
    some ({ s with certCounter := s.certCounter + 1 }, [x], nextMade c.certPerPeriod pub off (certs ++ [x]))
  | .add certs k =>
    match certs[k]? with
    | none => some (s, [], .armed certs)
    | some x => some ({ s with pool := addAll s.pool [x.toPrecert X] }, [], .post certs k)
  | .post certs k => some ({ s with issued := s.issued ++ (certs[k]?).toList }, [], nextAdd certs (k + 1))
  | .armed certs => (endRound X c t pos s).map fun s' => ({ s' with pool := s.pool }, [], .reset certs)
  | .reset certs => some ({ s with pool := CertPool.new }, [], .done certs)
  | .done certs => some (s, [], .done certs)

/-- A tick of the timer (CA/server.go:338-341), a step of a round, and the routes of CA/server.go:38-55. -/
inductive CATickEvent where
  | tick
  | run (k : Nat) (pub : Nat → Str) (t : Instant) (pos : List Nat)
  | sth (g : GossipObj)
  | poi (p : POI)
  | request (t : Instant)
  | revoke (i : Nat)

/-- CA/server.go:337-439 and the routes of 38-55. A panic of a round ends the process. -/
def caTickStep (c : CAConf L) (root : Cert) (m : CATicks) (e : CATickEvent) : CATicks :=
  if m.dead then m
  else
    match e with
    | .tick => { m with gs := m.gs ++ [.begun] }
    | .run k pub t pos =>
      match m.gs[k]? with
      | none => m
      | some g =>
        match tickStep X c root pub t pos m.s g with
        | none => { m with dead := true }
        | some (s', new, g') => { m with s := s', gs := m.gs.set k g', made := m.made ++ new }
    | .sth g => { m with s := caReceiveSTH c g m.s }
    | .poi p => { m with s := caReceivePOI X p m.s }
    | .request t => { m with s := (requestREV c t m.s).2 }
    | .revoke i => { m with s := { m.s with crv := m.s.crv.revoke i } }

/-- A schedule (CA/server.go:337-439). -/
def caTickRun (c : CAConf L) (root : Cert) (m : CATicks) (h : List CATickEvent) : CATicks :=
  h.foldl (caTickStep X c root) m

/-- CA/types.go:297-344: a CA that has just been started. -/
def CATicks.init (s : CAState) : CATicks := ⟨s, [], [], false⟩

end CTng
