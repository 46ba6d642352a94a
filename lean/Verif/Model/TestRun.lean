import Verif.Model.Schedule
/- Model of the settings and times of the test programs tests/networktests/Test1/Test1.go, Test2/Test2.go and Test3/Test3.go. The
configuration files they read are the subject of Model/Gen and Model/Config; the random delay is an argument. -/
set_option autoImplicit false

namespace CTng

/-- tests/networktests/Test1/Test1.go:82-85: every program of the test exits this many milliseconds after its start. (The timer is
taken to be exact; a late one leaves more time.) -/
def test1Life : Nat := 180000

/-- tests/networktests/Test1/Test1.go:50: `time.Sleep(60 * time.Second)`, called `load` milliseconds after the start of the program
at `T0`; the time at which it returns. The lateness of the sleep is part of `load`. -/
def test1Awake (T0 load : Nat) : Nat := T0 + load + 60000

/-- tests/networktests/Test1/Test1.go:51: `Period_Offset` -/
def test1Offset (tl : Timeline) (T0 load : Nat) : Str := getCurrentPeriod (tl.wall (test1Awake T0 load))

/-- tests/networktests/Test1/Test1.go:52: `Maxdrift_miliseconds` -/
def test1Maxdrift : Nat := 1000

/-- tests/networktests/Test1/Test1.go:53-54 with monitor/monitor-server.go:35-41: the time of the first call of the periodic tasks.
`drift` is the value of `rand.Intn(1000)`; the mode is 0 (monitor/types.go:350, Test1.go:47 is a comment), the period is that of the
configuration (60 seconds, tests/networktests/monitor_testconfig). -/
def test1Start (tl : Timeline) (T0 load drift : Nat) : Option Nat :=
  (monitorWait 60 0 drift (tl.wall (test1Awake T0 load))).map fun w => test1Awake T0 load + w

/-- tests/networktests/Test2/Test2.go:55 and tests/networktests/Test3/Test3.go:54: `Clockdrift_miliseconds` of the monitor `mid` -/
def test3Drift (mid : Nat) : Nat := 200 * mid

/-- tests/networktests/Test2/Test2.go:56 and tests/networktests/Test3/Test3.go:55: `Maxdrift_miliseconds` of the monitor `mid` when
the cryptographic configuration counts `n` monitors -/
def test3Maxdrift (mid n : Nat) : Nat := 200 * mid * n

/-- tests/networktests/Test2/Test2.go:53-57 and tests/networktests/Test3/Test3.go:51-56 with monitor/monitor-server.go:35-41 -/
def test3Start (tl : Timeline) (T0 load mid : Nat) : Option Nat :=
  (monitorWait 60 0 (test3Drift mid) (tl.wall (test1Awake T0 load))).map fun w => test1Awake T0 load + w

end CTng
