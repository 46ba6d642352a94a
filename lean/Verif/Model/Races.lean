/-
Accesses of the goroutines of a CA (CA/server.go:38-439), a logger (Logger/server.go:31-255) and a monitor
(monitor/monitor.go:43-520, monitor/types.go:84-296) to the fields and maps they share, with the locks they hold.
Simplifications: only the accesses and the locks are kept; data-dependent branches become choices and loops run any number
of times, so that every execution of the code is among the traces. Fields that are never written after start-up, and
posts, are left out.
-/
set_option autoImplicit false

namespace CTng

/-- Read (also RLock, monitor/types.go:169) or write (also Lock, monitor/types.go:212). -/
inductive RMode where
  | r
  | w
  deriving DecidableEq, Repr

/-- One step of a goroutine: `Lock`/`RLock` and their counterparts (monitor/types.go:169-259, CA/server.go:140-143), and the
begin and the end of an access. -/
inductive ROp (K V : Type) where
  | acq (l : K) (m : RMode)
  | rel (l : K) (m : RMode)
  | beg (v : V) (m : RMode)
  | fin (v : V) (m : RMode)
  deriving DecidableEq, Repr

/-- A program: an access, a locked section (also with a deferred unlock, Logger/server.go:52-53), sequence, choice and loop. -/
inductive RProg (K V : Type) where
  | skip
  | acc (v : V) (m : RMode)
  | under (l : K) (m : RMode) (body : RProg K V)
  | seq (p q : RProg K V)
  | alt (p q : RProg K V)
  | loop (p : RProg K V)

infixr:60 " ;; " => RProg.seq

/-- The steps a program may take. -/
inductive RTrace {K V : Type} : RProg K V → List (ROp K V) → Prop where
  | skip : RTrace .skip []
  | acc (v : V) (m : RMode) : RTrace (.acc v m) [.beg v m, .fin v m]
  | under {l : K} {m : RMode} {b : RProg K V} {t : List (ROp K V)} : RTrace b t → RTrace (.under l m b) (.acq l m :: t ++ [.rel l m])
  | seq {p q : RProg K V} {t u : List (ROp K V)} : RTrace p t → RTrace q u → RTrace (p ;; q) (t ++ u)
  | altL {p q : RProg K V} {t : List (ROp K V)} : RTrace p t → RTrace (.alt p q) t
  | altR {p q : RProg K V} {t : List (ROp K V)} : RTrace q t → RTrace (.alt p q) t
  | loopEnd {p : RProg K V} : RTrace (.loop p) []
  | loopMore {p : RProg K V} {t u : List (ROp K V)} : RTrace p t → RTrace (.loop p) u → RTrace (.loop p) (t ++ u)

/-- A goroutine: the steps it has left, the locks it holds, the accesses it is in the middle of. -/
structure RThread (K V : Type) where
  todo : List (ROp K V)
  held : List (K × RMode)
  opened : List (V × RMode)

variable {K V : Type} [DecidableEq K] [DecidableEq V]

/-- `sync.RWMutex` (a `sync.Mutex` is only taken with `w`): a writer excludes everyone, readers exclude writers. -/
def canAcq (ts : List (RThread K V)) (l : K) (m : RMode) : Bool :=
  ts.all fun t => t.held.all fun h => h.1 != l || (h.2 == .r && m == .r)

/-- One step of goroutine `i`; none if it has finished or waits for a lock. -/
def rstep (ts : List (RThread K V)) (i : Nat) : Option (List (RThread K V)) :=
  match ts[i]? with
  | none => none
  | some t =>
    match t.todo with
    | [] => none
    | .acq l m :: k => if canAcq ts l m then some (ts.set i ⟨k, (l, m) :: t.held, t.opened⟩) else none
    | .rel l m :: k => some (ts.set i ⟨k, t.held.erase (l, m), t.opened⟩)
    | .beg v m :: k => some (ts.set i ⟨k, t.held, (v, m) :: t.opened⟩)
    | .fin v m :: k => some (ts.set i ⟨k, t.held, t.opened.erase (v, m)⟩)

/-- The states of a process whose goroutines run the given programs: any number of them, started at any moment. -/
inductive RReach (progs : List (RProg K V)) : List (RThread K V) → Prop where
  | init : RReach progs []
  | spawn {ts : List (RThread K V)} {p : RProg K V} {t : List (ROp K V)} : RReach progs ts → p ∈ progs → RTrace p t → RReach progs (ts ++ [⟨t, [], []⟩])
  | step {ts ts' : List (RThread K V)} {i : Nat} : RReach progs ts → rstep ts i = some ts' → RReach progs ts'

/-! ### CA -/

/-- CA/types.go:21-51: what the goroutines of a CA share; `ext` is the extension bytes of the certificates in the pool. -/
inductive CAVar where
  | count
  | online
  | rev
  | revFake
  | sth
  | pool
  | byKey
  | certs
  | ext
  | keys
  | counter
  | crv
  | fresh
  deriving DecidableEq, Repr

/-- CA/types.go:44-49: the locks; `tick` and `round` stand for "no two of these at once" and are in no code. -/
inductive CALock where
  | count
  | sth
  | pool
  | tick
  | round
  deriving DecidableEq, Repr

open RProg RMode

/-- CA/server.go:134-209 -/
def caRequestREV : RProg CALock CAVar :=
  alt skip (under .count w (acc .count r ;; acc .count r ;; acc .count w)) ;;
  alt skip (acc .online r) ;; alt skip (alt (acc .rev r) (acc .revFake r))

/-- CA/server.go:213-233 -/
def caReceiveSTHAcc : RProg CALock CAVar := alt skip (under .sth w (acc .sth w))

/-- CA/server.go:236-263, CA/types.go:105-142, crypto/certpool.go:145-156, 175-186 -/
def caReceivePOIAcc : RProg CALock CAVar :=
  acc .sth r ;; acc .pool r ;; acc .byKey r ;;
  alt skip (acc .certs r ;; acc .ext r ;; alt skip (acc .ext w) ;; under .pool w (acc .pool r ;; acc .byKey r ;; acc .certs w))

/-- CA/server.go:338-371, 294-298, CA/ca.go:21, 66, crypto/certpool.go:67-100 -/
def caTick : RProg CALock CAVar :=
  loop (acc .sth r ;; acc .sth w) ;; acc .counter r ;; loop (acc .counter r ;; acc .counter w) ;; acc .keys w ;;
  loop (acc .pool r ;; acc .byKey r ;; acc .certs r ;; alt skip (acc .certs w ;; acc .byKey r ;; acc .byKey w))

/-- CA/server.go:372-437, CA/CRV.go:53-67, 82-146 -/
def caRound : RProg CALock CAVar :=
  acc .pool r ;; acc .certs r ;; loop (acc .ext r) ;; acc .crv r ;; acc .fresh r ;; alt skip (acc .crv w ;; acc .crv r ;; acc .fresh w) ;;
  acc .crv r ;; acc .crv r ;; acc .online r ;; acc .crv w ;; acc .rev w ;; acc .revFake w ;; acc .rev r ;; acc .revFake r ;;
  under .count w (acc .count r ;; alt skip (acc .online r ;; acc .online w) ;; acc .count w) ;; acc .pool w

/-- CA/server.go:38-55: the handlers -/
def caHandlers : List (RProg CALock CAVar) := [caRequestREV, caReceiveSTHAcc, caReceivePOIAcc]

/-- CA/server.go:38-55, 338-438: all goroutines -/
def caProgs : List (RProg CALock CAVar) := caTick :: caRound :: caHandlers

/-- The same, if no two starts of periods and no two ends of periods (CA/server.go:338-438) run at once. -/
def caProgsApart : List (RProg CALock CAVar) := under .tick w caTick :: under .round w caRound :: caHandlers

/-! ### Logger -/

/-- Logger/Types.go:32-56: what the goroutines of a logger share -/
inductive LogVar where
  | count
  | online
  | sth
  | sthFake
  | pool
  | byKey
  | certs
  | period
  deriving DecidableEq, Repr

/-- Logger/Types.go:51-52: the locks; `round` is in no code -/
inductive LogLock where
  | count
  | pool
  | round
  deriving DecidableEq, Repr

/-- Logger/server.go:46-109 -/
def logRequestSTH : RProg LogLock LogVar :=
  under .count w (acc .count r ;; acc .count w ;; alt skip (acc .count r) ;; alt skip (acc .online r) ;;
    alt skip (alt (acc .sth r) (acc .sthFake r)))

/-- Logger/server.go:112-129, crypto/certpool.go:67-100 -/
def logReceivePrecert : RProg LogLock LogVar :=
  alt skip (under .pool w (acc .pool r ;; acc .byKey r ;; acc .certs r ;; alt skip (acc .certs w ;; acc .byKey r ;; acc .byKey w)))

/-- Logger/server.go:227, 232: the call of BuildMerkleTreeFromCerts passes a copy of the whole context, which reads every field -/
def logCopy : RProg LogLock LogVar := acc .count r ;; acc .online r ;; acc .pool r ;; acc .period r

/-- Logger/server.go:207-252, 161-180 -/
def logRoundAcc : RProg LogLock LogVar :=
  acc .period r ;; acc .period w ;; acc .pool r ;; acc .certs r ;; logCopy ;; acc .pool r ;; acc .certs r ;; logCopy ;;
  acc .sth w ;; acc .sthFake w ;; loop (acc .pool r ;; acc .byKey r ;; acc .certs r) ;;
  under .count w (acc .count r ;; alt skip (acc .online r ;; acc .online w) ;; acc .count w) ;; acc .pool w

/-- Logger/server.go:31-43: the handlers -/
def logHandlers : List (RProg LogLock LogVar) := [logRequestSTH, logReceivePrecert]

/-- Logger/server.go:31-43, 206-253: all goroutines -/
def logProgs : List (RProg LogLock LogVar) := logRoundAcc :: logHandlers

/-- The same, if no two ends of periods (Logger/server.go:206-253) run at once. -/
def logProgsApart : List (RProg LogLock LogVar) := under .round w logRoundAcc :: logHandlers

/-! ### Monitor -/

/-- monitor/types.go:23-32: the maps of a monitor -/
inductive MonVar where
  | temp
  | con
  | conDelta
  | accu
  | accuDelta
  | sthFull
  | revFull
  | crv
  deriving DecidableEq, Repr

/-- monitor/types.go:50-55: the locks -/
inductive MonLock where
  | temp
  | con
  | accu
  | sth
  | rev
  | crv
  deriving DecidableEq, Repr

/-- monitor/types.go:165-207 -/
def monGetObject : RProg MonLock MonVar :=
  alt skip (alt (under .con r (acc .con r)) (alt (under .accu r (acc .accu r)) (alt (under .sth r (acc .sthFull r))
    (alt (under .rev r (acc .revFull r)) (under .temp r (acc .temp r))))))

/-- monitor/types.go:219-240: the objects `Process_valid_object` stores (monitor/monitor.go:487-489) -/
def monStoreFull : RProg MonLock MonVar :=
  alt (under .con w (acc .con w) ;; acc .conDelta w) (alt (under .accu w (acc .accu w) ;; acc .accuDelta w)
    (alt (under .sth w (acc .sthFull w)) (under .rev w (acc .revFull w))))

/-- monitor/monitor.go:43-66: the handler, with monitor/types.go:211-218 -/
def monGossip : RProg MonLock MonVar :=
  monGetObject ;; alt skip (alt (under .temp w (acc .temp w)) monStoreFull)

/-- monitor/monitor.go:373-393 -/
def monCheckPom : RProg MonLock MonVar := acc .accu r ;; alt skip (acc .con r)

/-- monitor/monitor.go:142-171, 238-283, 493-498: the goroutine of one query -/
def monQuery : RProg MonLock MonVar := alt skip (acc .crv r ;; acc .crv r) ;; alt skip monStoreFull

/-- monitor/monitor.go:316-340, 289-292: the function of `Wait_then_accuse` -/
def monAccuse : RProg MonLock MonVar := acc .temp r ;; monCheckPom ;; alt skip monCheckPom

/-- monitor/types.go:251-260: twenty seconds after a revocation -/
def monCrvTimer : RProg MonLock MonVar :=
  acc .crv r ;; alt (under .crv w (acc .crv w)) (under .crv w (acc .crv r ;; acc .crv w))

/-- monitor/monitor.go:134-137, 230-233: the loops over the loggers and CAs at the start of a period -/
def monTick : RProg MonLock MonVar := loop monCheckPom

/-- monitor/monitor.go:460-469, 413-439, monitor/types.go:88-112, 124-128, 271-296: the end of a period -/
def monRound : RProg MonLock MonVar :=
  loop (acc .sthFull r ;; acc .con r ;; alt skip (acc .sthFull w)) ;; loop (acc .revFull r ;; acc .con r ;; alt skip (acc .revFull w)) ;;
  loop (acc .temp r ;; acc .temp w) ;; loop (acc .sthFull r ;; alt skip (acc .sthFull w)) ;;
  loop (acc .revFull r ;; alt skip (acc .revFull w)) ;; loop (acc .conDelta r ;; alt skip (acc .conDelta w)) ;;
  loop (acc .accuDelta r ;; alt skip (acc .accuDelta w)) ;;
  loop (acc .sthFull r) ;; loop (acc .revFull r) ;; loop (acc .conDelta r) ;; loop (acc .accuDelta r) ;; loop (acc .crv r)

/-- Everything but the end of a period (monitor/monitor.go:43-458, monitor/types.go:251-260). -/
def monBetween : List (RProg MonLock MonVar) := [monGossip, monQuery, monAccuse, monCrvTimer, monTick]

/-- monitor/monitor.go:43-470: all goroutines -/
def monProgs : List (RProg MonLock MonVar) := monRound :: monBetween

end CTng
