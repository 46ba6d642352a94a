import Verif.Model.TestRun
import Verif.Props.Schedule
/- C161: a run of the network tests of three minutes covers a period. -/
set_option autoImplicit false

namespace CTng

variable (tl : Timeline)

/-- The first period of a monitor of the test begins with the second minute after that in which it was started. -/
theorem test1Start_eq {T0 load drift st : Nat} (h : test1Start tl T0 load drift = some st) :
    st = ((T0 + load) / 60000 + 2) * 60000 + ((T0 + load) % 1000 + drift) := by
  have hsec : (tl.wall (test1Awake T0 load)).second = test1Awake T0 load / 1000 % 60 := tl.wall_second _
  simp only [test1Start, monitorWait, gossiperWait_eq, Option.map_some, if_true, Option.some.injEq, hsec] at h
  rw [test1Awake] at h
  omega

/-- The programs of the test whose work is seen in the first period of a monitor: the monitor `T0`, a logger started at `T1` and a
CA started at `T2`, all in one minute (the monitor counted from the time it begins to sleep). -/
structure OneMinute (T0 load T1 T2 : Nat) : Prop where
  logger : T1 / 60000 = (T0 + load) / 60000
  ca : T2 / 60000 = (T0 + load) / 60000

/-- The delays of the first round of a monitor leave a rest of the twenty seconds. -/
structure Prompt (T : Timers) (load drift : Nat) : Prop where
  drift : drift < 1000
  delay : load + T.total 0 + T.hold 0 < 18000

section Monitor
variable {L : Lib} (X : XLib) (c : MonConf L)
open Mon

/-- C161 for the monitor: wherever in an hour it is started, it sends its first queries and writes its first update before the
program ends. The update is dated with the minute of the queries and lists exactly what the monitor holds of that minute without a
conflict proof; the directory is number 1 unless the hour changes. -/
theorem C161_first_update (T0 load drift : Nat) (T : Timers) (hm : T.mmd = 60)
    (hs : test1Start tl T0 load drift = some T.start) (hp : Prompt T load drift) (ho : c.periodOffset = test1Offset tl T0 load)
    (evs : List MonEvent) (s s' : MonState) (hr : monRun X c initMonitor evs = some s) (clk : Clock)
    (hc : clk.period = getCurrentPeriod (tl.wall (T.round 0))) (hf : monStep X c s (.finish clk) = some s') :
    T.query test1Maxdrift 0 < T.round 0 ∧ T.round 0 < T0 + test1Life ∧
      (tl.wall (T.query test1Maxdrift 0)).minute = ((T0 + load) / 60000 + 2) % 60 ∧
      ∃ u, s'.files.get (if (tl.wall (T.query test1Maxdrift 0)).minute = 0 then go!"-59" else go!"1") = some u ∧
        u.period = getCurrentPeriod (tl.wall (T.query test1Maxdrift 0)) ∧
        (∀ g, g ∈ u.sths ↔ s.sthFull.get g.getID = some g ∧ g.period = getCurrentPeriod (tl.wall (T.query test1Maxdrift 0)) ∧
          s.conflictPom.get ⟨go!"0", .CON_INIT, g.payload.p0⟩ = none) ∧
        (∀ g, g ∈ u.revs ↔ s.revFull.get g.getID = some g ∧ g.period = getCurrentPeriod (tl.wall (T.query test1Maxdrift 0)) ∧
          s.conflictPom.get ⟨go!"0", .CON_INIT, g.payload.p0⟩ = none) := by
  have hst := test1Start_eq tl hs
  have hd := hp.drift
  have hl := hp.delay
  have a := tick_eq T 0
  rw [hm, hst] at a
  have q : T.query test1Maxdrift 0 / 60000 = (T0 + load) / 60000 + 2 := by rw [Timers.query, test1Maxdrift]; omega
  have hmin : (tl.wall (T.query test1Maxdrift 0)).minute = ((T0 + load) / 60000 + 2) % 60 := by rw [tl.wall_minute, q]
  obtain ⟨w, hw⟩ : ∃ w, monitorWait 60 0 drift (tl.wall (test1Awake T0 load)) = some w ∧ T.start = test1Awake T0 load + w := by
    rw [test1Start, Option.map_eq_some_iff] at hs
    obtain ⟨w, h1, h2⟩ := hs
    exact ⟨w, h1, h2.symm⟩
  obtain ⟨u, hu, hrest⟩ := C118_update_on_time_partial tl X c (test1Awake T0 load) drift test1Maxdrift T hm w hw.1 hw.2 0
    (by rw [test1Awake]; omega) (by rw [test1Awake, test1Maxdrift]; omega) evs s s' hr clk hc hf
  refine ⟨by rw [Timers.query, Timers.round, hm, test1Maxdrift]; omega, ?_, hmin, u, ?_, hrest⟩
  · rw [Timers.round, hm, test1Life]; omega
  · rw [← hu]
    congr 1
    rw [periodIO, hc, ho, test1Offset, period_eq_padInt, period_eq_padInt]
    have hr' : (tl.wall (T.round 0)).minute = ((T0 + load) / 60000 + 2) % 60 := by
      rw [tl.wall_minute, Timers.round, hm]
      have : (T.tick 0 + (60 - 20) * 1000 + T.hold 0) / 60000 = (T0 + load) / 60000 + 2 := by omega
      rw [this]
    have ha : (tl.wall (test1Awake T0 load)).minute = ((T0 + load) / 60000 + 1) % 60 := by
      rw [tl.wall_minute, test1Awake]
      have : (T0 + load + 60000) / 60000 = (T0 + load) / 60000 + 1 := by omega
      rw [this]
    rw [atoi_padInt_two _ (by have := (tl.wall (T.round 0)).minute_lt; omega),
      atoi_padInt_two _ (by have := (tl.wall (test1Awake T0 load)).minute_lt; omega), hmin, hr', ha]
    simp only [Option.getD_some]
    generalize (T0 + load) / 60000 = m
    by_cases h0 : (m + 2) % 60 = 0
    · have h1 : (m + 1) % 60 = 59 := by omega
      rw [if_pos h0, h0, h1]
      decide +kernel
    · have h1 : (((m + 2) % 60 : Nat) : Int) - (((m + 1) % 60 : Nat) : Int) = 1 := by omega
      rw [if_neg h0, h1]
      decide +kernel

/-- C161: a monitor started in the first forty seconds of a minute writes no second update: the program ends before. -/
theorem C161_only_update (T0 load drift : Nat) (T : Timers) (hm : T.mmd = 60) (hs : test1Start tl T0 load drift = some T.start)
    (h40 : (T0 + load) % 60000 < 40000) (k : Nat) (hk : 1 ≤ k) : T0 + test1Life < T.round k := by
  have hst := test1Start_eq tl hs
  have a := tick_eq T k
  rw [hm, hst] at a
  rw [Timers.round, hm, test1Life]
  omega

/-- C161 fails in the first ten minutes of an hour: the update lists nothing that carries the label the logger and the CA give to
the minute that was queried. -/
theorem C161_violated_first_ten_minutes (T0 load drift : Nat) (T : Timers) (hm : T.mmd = 60)
    (hs : test1Start tl T0 load drift = some T.start) (hp : Prompt T load drift) (ho : c.periodOffset = test1Offset tl T0 load)
    (h10 : ((T0 + load) / 60000 + 2) % 60 < 10)
    (evs : List MonEvent) (s s' : MonState) (hr : monRun X c initMonitor evs = some s) (clk : Clock)
    (hc : clk.period = getCurrentPeriod (tl.wall (T.round 0))) (hf : monStep X c s (.finish clk) = some s') :
    ∃ u, s'.files.get (if (tl.wall (T.query test1Maxdrift 0)).minute = 0 then go!"-59" else go!"1") = some u ∧
      ∀ g, g ∈ u.sths ∨ g ∈ u.revs → g.period ≠ itoa (tl.wall (T.query test1Maxdrift 0)).minute := by
  obtain ⟨_, _, hmin, u, hu, _, h1, h2⟩ := C161_first_update tl X c T0 load drift T hm hs hp ho evs s s' hr clk hc hf
  refine ⟨u, hu, fun g hg e => ?_⟩
  have hn := C72_violated_first_ten_minutes (tl.wall (T.query test1Maxdrift 0)) (by rw [hmin]; exact h10)
  rw [C72_numeric_period] at hn
  rcases hg with hg | hg
  · exact hn (e.symm.trans ((h1 g).1 hg).2.1)
  · exact hn (e.symm.trans ((h2 g).1 hg).2.1)

/-- C161 fails for the monitors of the second and third test whose number times the number of monitors reaches 200: every update is
written before the monitor sends the queries of its minute, and what is dated with the minute of those queries is listed in no
update of the other rounds of an hour. -/
theorem C161_violated_many_monitors (T0 load mid n : Nat) (hmid : mid * n < 280) (h200 : 200 ≤ mid * n) (hn : mid ≤ n) (T : Timers)
    (hm : T.mmd = 60) (hs : test3Start tl T0 load mid = some T.start) (hl : ∀ k, T.late k = 0 ∧ T.hold k = 0) (k : Nat) :
    T.round k ≤ T.query (test3Maxdrift mid n) k ∧
      ∀ j, j ≠ k → j < k + 60 → k < j + 60 → ∀ (evs : List MonEvent) (s s' : MonState) (clk : Clock),
        monRun X c initMonitor evs = some s → clk.period = getCurrentPeriod (tl.wall (T.round j)) →
        monStep X c s (.finish clk) = some s' →
        ∃ u, s'.files.get (periodIO c clk) = some u ∧
          ∀ g, g ∈ u.sths ∨ g ∈ u.revs → g.period ≠ getCurrentPeriod (tl.wall (T.query (test3Maxdrift mid n) k)) := by
  have hst : T.start = ((T0 + load) / 60000 + 2) * 60000 + ((T0 + load) % 1000 + test3Drift mid) :=
    test1Start_eq tl (drift := test3Drift mid) hs
  have tot : ∀ k, T.total k = 0 := by
    intro k
    induction k with
    | zero => exact (hl 0).1
    | succ k ih => rw [Timers.total, ih, (hl _).1]
  have hx : test3Maxdrift mid n = 200 * (mid * n) := by rw [test3Maxdrift, Nat.mul_assoc]
  have hsq : mid * mid ≤ mid * n := Nat.mul_le_mul_left _ hn
  have hmid' : mid < 17 := by
    rcases Nat.lt_or_ge mid 17 with h | h
    · exact h
    · have := Nat.mul_le_mul h h
      omega
  have tick : ∀ k, T.tick k = ((T0 + load) / 60000 + 2 + k) * 60000 + ((T0 + load) % 1000 + 200 * mid) := by
    intro k
    have a := tick_eq T k
    rw [hm, hst, tot, test3Drift] at a
    have e : k * (60 * 1000) = k * 60000 := rfl
    rw [a, Nat.add_mul _ k, e]
    ac_rfl
  have hrd : ∀ j, T.round j / 60000 = (T0 + load) / 60000 + 2 + j := by
    intro j
    rw [Timers.round, tick, hm, (hl j).2]
    omega
  have hq : T.query (test3Maxdrift mid n) k / 60000 = (T0 + load) / 60000 + 2 + k := by
    rw [Timers.query, tick, hx]
    omega
  refine ⟨by rw [Timers.query, Timers.round, hm, hx, (hl k).2]; omega, fun j hj h1 h2 evs s s' clk hr hc hf => ?_⟩
  have e : getCurrentPeriod (tl.wall (T.round j)) ≠ getCurrentPeriod (tl.wall (T.query (test3Maxdrift mid n) k)) := by
    intro h
    have h' := (C72_period_identifies_minute _ _).1 h
    rw [tl.wall_minute, tl.wall_minute, hrd, hq] at h'
    clear hrd hq tick hx hst h hc hf hr hs hsq tot hl
    omega
  obtain ⟨u, h1, _, _, _, h3, h4, _, _⟩ := C43_update_exact X c evs s s' clk hr hf
  refine ⟨u, h1, fun g hg => ?_⟩
  rcases hg with hg | hg
  · rw [((h3 g).1 hg).2.1, hc]; exact e
  · rw [((h4 g).1 hg).2.1, hc]; exact e

end Monitor

section Answers
variable {L : Lib} (X : XLib)

/-- C161 for the logger: started in the same minute as the monitor it is still running when the first queries arrive, and answers
with the tree head it built at the end of the minute before. From the tenth minute of an hour on the tree head carries the date of
the update the monitor will write. -/
theorem C161_logger_answers_partial (c : LoggerConf L) (hc : c.loggerType = 0) (T0 load drift T1 T2 : Nat) (ho : OneMinute T0 load T1 T2)
    (U : Timers) (hU : U.mmd = 60) (hUs : test1Start tl T0 load drift = some U.start) (hp : Prompt U load drift)
    (T : Timers) (hm : T.mmd = 60) (hs : T.start = T1 + loggerWait (tl.wall T1) * 1000) (n : Nat)
    (hd : ∀ k, k ≤ n → T1 % 1000 + T.total k + T.hold k < 20000) (hq : RoundsUntil T (U.query test1Maxdrift 0) n)
    (evs : List LoggerEvent) (s : LoggerState) (hr : loggerRun X c initLogger evs = some s)
    (hf : logFinishes evs = (List.range n).map fun k => tl.wall (T.round k))
    (h10 : 10 ≤ ((T0 + load) / 60000 + 2) % 60) :
    U.query test1Maxdrift 0 < T1 + test1Life ∧
    ∃ pre r post s1 b, evs = pre ++ .finish (tl.wall r) :: post ∧ r / 60000 + 1 = U.query test1Maxdrift 0 / 60000 ∧
      loggerRun X c initLogger pre = some s1 ∧
      buildMerkle X c (tl.wall r) s1.pool.getCerts (tl.wall (U.query test1Maxdrift 0)).minute = some b ∧
      b.sth.period = getCurrentPeriod (tl.wall (U.query test1Maxdrift 0)) ∧
      (requestSTH c (tl.wall (U.query test1Maxdrift 0)) s).1 = .obj b.sth := by
  have hst := test1Start_eq tl hUs
  have hd' := hp.drift
  have hl := hp.delay
  have a := tick_eq U 0
  rw [hU, hst] at a
  have hsame := ho.logger
  have q : U.query test1Maxdrift 0 / 60000 = (T0 + load) / 60000 + 2 := by rw [Timers.query, test1Maxdrift]; omega
  have hmin : (tl.wall (U.query test1Maxdrift 0)).minute = ((T0 + load) / 60000 + 2) % 60 := by rw [tl.wall_minute, q]
  obtain ⟨m, hms, _, hm1⟩ := logger_start tl T1
  refine ⟨by rw [Timers.query, test1Maxdrift, test1Life]; omega, ?_⟩
  obtain ⟨pre, r, post, s1, b, h1, h2, _, h3, h4, h5, h6⟩ := C118_logger_on_time_partial tl X c hc T1 T hm hs _ n hd hq evs s hr hf
    (by rw [hs, hms, q]; omega) (by rw [hmin]; omega)
  refine ⟨pre, r, post, s1, b, h1, h2, h3, h4, ?_, h6⟩
  rw [h5, ← C72_numeric_period]
  exact (C72_notations_agree_partial _).2 (by rw [hmin]; exact h10)

/-- C161 for the CA. -/
theorem C161_ca_answers_partial (c : CAConf L) (root : Cert) (hc : c.caType = 0) (sha : Str → Str) (signer pub : Str)
    (T0 load drift T1 T2 : Nat) (ho : OneMinute T0 load T1 T2)
    (U : Timers) (hU : U.mmd = 60) (hUs : test1Start tl T0 load drift = some U.start) (hp : Prompt U load drift)
    (T : Timers) (hm : T.mmd = 60) (hs : T.start = T2 + caWait (tl.wall T2) * 1000) (n : Nat)
    (hd : ∀ k, k ≤ n → (if (tl.wall T2).second = 0 then 0 else 1000) + T2 % 1000 + T.total k + T.hold k < 20000)
    (hq : RoundsUntil T (U.query test1Maxdrift 0) n)
    (evs : List CAEvent) (s : CAState) (hr : caRun X c root (initCA X sha signer pub).2 evs = some s)
    (hf : caFinishes evs = (List.range n).map fun k => tl.wall (T.round k))
    (h10 : 10 ≤ ((T0 + load) / 60000 + 2) % 60) :
    U.query test1Maxdrift 0 < T2 + test1Life ∧
    ∃ pre r pos post s1 rev, evs = pre ++ .finish (tl.wall r) pos :: post ∧ r / 60000 + 1 = U.query test1Maxdrift 0 / 60000 ∧
      caRun X c root (initCA X sha signer pub).2 pre = some s1 ∧
      generateRevocation X c { s1 with crv := if s1.fresh then s1.crv.massRevoke pos else s1.crv, fresh := false }
        (itoa (tl.wall (U.query test1Maxdrift 0)).minute) false = some rev ∧
      rev.period = getCurrentPeriod (tl.wall (U.query test1Maxdrift 0)) ∧
      (requestREV c (tl.wall (U.query test1Maxdrift 0)) s).1 = .obj rev := by
  have hst := test1Start_eq tl hUs
  have hd' := hp.drift
  have hl := hp.delay
  have a := tick_eq U 0
  rw [hU, hst] at a
  have hsame := ho.ca
  have q : U.query test1Maxdrift 0 / 60000 = (T0 + load) / 60000 + 2 := by rw [Timers.query, test1Maxdrift]; omega
  have hmin : (tl.wall (U.query test1Maxdrift 0)).minute = ((T0 + load) / 60000 + 2) % 60 := by rw [tl.wall_minute, q]
  obtain ⟨m, d, hms, hdd, _, hm1⟩ := ca_start tl T2
  refine ⟨by rw [Timers.query, test1Maxdrift, test1Life]; omega, ?_⟩
  obtain ⟨pre, r, pos, post, s1, rev, h1, h2, _, h3, h4, h5, h6⟩ :=
    C118_ca_on_time_partial tl X c root hc sha signer pub T2 T hm hs _ n hd hq evs s hr hf
      (by rw [hs, hms, q]; omega) (by rw [hmin]; omega)
  refine ⟨pre, r, pos, post, s1, rev, h1, h2, h3, h4, ?_, h6⟩
  rw [h5, ← C72_numeric_period]
  exact (C72_notations_agree_partial _).2 (by rw [hmin]; exact h10)

/-- C161 fails when the logger is started one minute after the monitor (and not at the full minute): it has nothing for the minute
of the first queries and answers with the empty object. -/
theorem C161_violated_logger_later (c : LoggerConf L) (hc : c.loggerType = 0) (T0 load drift T1 : Nat)
    (h1 : T1 / 60000 = (T0 + load) / 60000 + 1) (hsec : (tl.wall T1).second ≠ 0)
    (U : Timers) (hU : U.mmd = 60) (hUs : test1Start tl T0 load drift = some U.start) (hp : Prompt U load drift)
    (T : Timers) (hm : T.mmd = 60) (hs : T.start = T1 + loggerWait (tl.wall T1) * 1000) (n : Nat)
    (hq : RoundsUntil T (U.query test1Maxdrift 0) n)
    (evs : List LoggerEvent) (s : LoggerState) (hr : loggerRun X c initLogger evs = some s)
    (hf : logFinishes evs = (List.range n).map fun k => tl.wall (T.round k)) :
    (requestSTH c (tl.wall (U.query test1Maxdrift 0)) s).1 = .obj GossipObj.zero := by
  have hst := test1Start_eq tl hUs
  have hd' := hp.drift
  have hl := hp.delay
  have a := tick_eq U 0
  rw [hU, hst] at a
  rw [loggerWait_eq, if_neg hsec] at hs
  rw [tl.wall_second] at hs hsec
  have a' := tick_eq T 0
  rw [hm] at a'
  have hlate : U.query test1Maxdrift 0 < T.round 0 := by
    rw [Timers.query, Timers.round, test1Maxdrift, hm]
    omega
  have hn : n = 0 := by
    rcases Nat.eq_zero_or_pos n with h | h
    · exact h
    · have := hq.past 0 h
      omega
  subst hn
  refine untouched_answer X c hc hr (logUntouched_of fun t ht => ?_)
  rw [hf] at ht
  simp at ht

end Answers

/-! ### Concrete cases -/

namespace Ref

/-- A monitor of the test started at 00:57:10: it begins to sleep at 00:57:12.345, waits for 00:59 and a drift of 200 ms. -/
def testTimers : Timers := ⟨3540545, 60, fun _ => 10, fun _ => 20⟩

/-- C161: the hypotheses for a logger and a CA started at 00:57:12.345; the answers are no empty objects. -/
example : test1Start timeline 3430000 2345 200 = some testTimers.start ∧ Prompt testTimers 2345 200 ∧
    OneMinute 3430000 2345 3432345 3432345 ∧ RoundsUntil logTimers (testTimers.query test1Maxdrift 0) 1 ∧
    RoundsUntil caTimers (testTimers.query test1Maxdrift 0) 1 ∧ 10 ≤ ((3430000 + 2345) / 60000 + 2) % 60 ∧
    test1Offset timeline 3430000 2345 = go!"58" ∧
    ((loggerRun xlib logConf initLogger [.precert leafA.raw, .precert leafB.raw, .finish (timeline.wall (logTimers.round 0))]).map
      fun s => (requestSTH logConf (timeline.wall (testTimers.query test1Maxdrift 0)) s).1 == .obj GossipObj.zero) = some false ∧
    ((caRun xlib caConf caRoot caInit [.revoke 4, .finish (timeline.wall (caTimers.round 0)) []]).map
      fun s => (requestREV caConf (timeline.wall (testTimers.query test1Maxdrift 0)) s).1 == .obj GossipObj.zero) = some false := by
  refine ⟨by decide +kernel, ⟨by decide, by decide +kernel⟩, ⟨by decide, by decide⟩, ⟨?_, by decide +kernel⟩, ⟨?_, by decide +kernel⟩,
    by decide, by decide +kernel, by decide +kernel, by decide +kernel⟩
  all_goals
    intro k hk
    have : k = 0 := by omega
    subst this
    decide +kernel

/-- C161: started at 00:57:10 the monitor writes at 00:59:40.6 and the program ends at 01:00:10; started at 00:57:50 it writes
twice. -/
example : (3430000 + 2345) % 60000 < 40000 ∧ testTimers.round 0 < 3430000 + test1Life ∧ 3430000 + test1Life < testTimers.round 1 ∧
    test1Start timeline 3470000 2345 200 = some testTimers.start ∧ testTimers.round 1 < 3470000 + test1Life := by
  decide +kernel

/-- C161: the logger started at 00:58:12 has nothing for the queries of 00:59. -/
example : (3492000 : Nat) / 60000 = (3430000 + 2345) / 60000 + 1 ∧ (timeline.wall 3492000).second ≠ 0 ∧
    (let T : Timers := ⟨3492000 + loggerWait (timeline.wall 3492000) * 1000, 60, fun _ => 0, fun _ => 0⟩
     RoundsUntil T (testTimers.query test1Maxdrift 0) 0) := by
  exact ⟨by decide, by decide +kernel, fun k hk => absurd hk (Nat.not_lt_zero k), by decide +kernel⟩

/-- A monitor of the test that writes its first update in minute 5. -/
def testTimers05 : Timers := ⟨300545, 60, fun _ => 10, fun _ => 20⟩

/-- C161: the hypotheses for a monitor started at 00:03:10, and its update. -/
example : test1Start timeline 190000 2345 200 = some testTimers05.start ∧ Prompt testTimers05 2345 200 ∧
    test1Offset timeline 190000 2345 = go!"04" ∧ ((190000 + 2345) / 60000 + 2) % 60 < 10 ∧
    clk.period = getCurrentPeriod (timeline.wall (testTimers05.round 0)) ∧
    (let c := { monConf with periodOffset := go!"04" }
     ((monRun xlib c initMonitor monHistory).bind fun s => (monStep xlib c s (.finish clk)).map fun s1 =>
        (s1.files.get (go!"1")).map fun u => u.sths == [sthFull05]) = some (some true)) := by
  refine ⟨by decide +kernel, ⟨by decide, by decide +kernel⟩, by decide +kernel, by decide, by decide +kernel, by decide +kernel⟩

/-- C161: fifteen monitors; the fourteenth writes at 00:02:42.8 the update of minute 2 and queries at 00:02:44.8. -/
example : 14 * 15 < 280 ∧ 200 ≤ 14 * 15 ∧ test3Start timeline 0 0 14 = some 122800 ∧ test3Maxdrift 14 15 = 42000 ∧
    (let T : Timers := ⟨122800, 60, fun _ => 0, fun _ => 0⟩
     T.round 0 = 162800 ∧ T.query (test3Maxdrift 14 15) 0 = 164800) := by
  decide +kernel

end Ref
end CTng
