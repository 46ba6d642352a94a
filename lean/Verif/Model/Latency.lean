import Verif.Model.Util
/-
The delay before a message is sent or a request answered.
-/
set_option autoImplicit false

namespace CTng

/-- A result of `rand.ExpFloat64`, which is not negative: the fraction `num/den`. -/
structure Draw where
  num : Nat
  den : Nat
  pos : 0 < den

/-- util/helpers.go:141-146: `int(rand.ExpFloat64()*float64(max-min) + float64(min))`. The arithmetic is exact, where the code rounds
to float64; the conversion to int cuts off towards zero. -/
def Draw.latency (e : Draw) (min max : Int) : Int := Int.tdiv (e.num * (max - min) + min * e.den) e.den

/-- util/helpers.go:140-152 `GetRandomLatency` with the results `rnd` of the random source: at most `fuel` of them. -/
def getRandomLatency (rnd : Nat → Draw) (min max : Int) (fuel : Nat) : Option Int :=
  randomLatencyLoop (fun i => (rnd i).latency min max) min max fuel 0

/-- gossiper/gossiper_server.go:505-507, Logger/server.go:47-49, CA/server.go:135-137, monitor/monitor.go:143-145 and 239-241: the
delay in milliseconds before the request is sent or answered; `none` as long as the loop is running. -/
def delayBefore (rnd : Nat → Draw) (min max : Int) (fuel : Nat) : Option Int :=
  if max > 0 then getRandomLatency rnd min max fuel else some 0

end CTng
