import Verif.Model.Monitor
import Verif.Model.Logger
/- Model of the start-up functions and of the chains of timers: StartCA, StartLogger, StartGossiperServer,
StartMonitorServer and the `time.AfterFunc` calls of the four `PeriodicTask(s)`. Setting up the HTTP client and the routes is
not modelled. -/
set_option autoImplicit false

namespace CTng

/-- What the wall clock (`time.Now().UTC()`) shows `T` milliseconds after some full hour. Leap seconds do not occur in Go's
`time`; the clock is not set during the run. -/
structure Timeline where
  wall : Nat → Instant
  wall_second : ∀ T, (wall T).second = T / 1000 % 60
  wall_minute : ∀ T, (wall T).minute = T / 60000 % 60

/-- CA/server.go:328-335 and Logger/server.go:191-198 `GerCurrentSecond`: the error of Atoi is ignored. -/
def gerCurrentSecond (t : Instant) : Str := itoa ((atoi (slice t.rfc3339 17 19)).getD 0)

/-- Logger/server.go:269-280 `StartLogger`: the seconds slept when called at `t` (the second is at most 59) -/
def loggerWait (t : Instant) : Nat :=
  if gerCurrentSecond t ≠ go!"0" then 60 - (atoi (gerCurrentSecond t)).getD 0 else 0

/-- CA/server.go:444-454 `StartCA`: the seconds slept when called at `t`; one second more than the logger -/
def caWait (t : Instant) : Nat :=
  let second := (atoi (gerCurrentSecond t)).getD 0
  if second ≠ 0 then 60 - second + 1 else 0

/-- gossiper/gossiper_server.go:582-584 `StartGossiperServer`: the seconds slept; `time.Sleep` of a negative duration returns
at once. `none` is the panic of `Getwaitingtime`. -/
def gossiperWait (mmd : Nat) (t : Instant) : Option Nat := (getWaitingTime mmd t).map Int.toNat

/-- monitor/monitor-server.go:35-41 `StartMonitorServer`: the milliseconds slept -/
def monitorWait (mmd mode drift : Nat) (t : Instant) : Option Nat :=
  if mode = 0 then (gossiperWait mmd t).map fun w => w * 1000 + drift else some drift

/-- A chain of timers. `start` is the time of the first call of the periodic task. `late k` is the lateness of the `k`-th call:
`time.AfterFunc(d, f)` runs `f` no earlier than `d` after the call. `hold k` is the time from the beginning of the `k`-th call
to arming the second timer (the CA first issues and sends its certificates) and the lateness of that timer. -/
structure Timers where
  start : Nat
  mmd : Nat
  late : Nat → Nat
  hold : Nat → Nat

/-- CA/server.go:338-341, Logger/server.go:202-205, gossiper/gossiper_server.go:562-569, monitor/monitor.go:441-448: the time of
the `k`-th call of the periodic task, which arms the timer for the next call first -/
def Timers.tick (T : Timers) : Nat → Nat
  | 0 => T.start + T.late 0
  | k + 1 => T.tick k + T.mmd * 1000 + T.late (k + 1)

/-- CA/server.go:439, Logger/server.go:253, gossiper/gossiper_server.go:575, monitor/monitor.go:469: the time at which the second
part `f1` of the `k`-th call runs (a negative duration fires at once) -/
def Timers.round (T : Timers) (k : Nat) : Nat := T.tick k + (T.mmd - 20) * 1000 + T.hold k

/-- monitor/monitor.go:449-459: the time at which the monitor starts the queries of the `k`-th period -/
def Timers.query (T : Timers) (maxdrift : Nat) (k : Nat) : Nat := T.tick k + maxdrift

end CTng
