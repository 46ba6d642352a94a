import Verif.Model.Schedule
import Verif.Props.CA
import Verif.Props.Logger
import Verif.Props.Monitor
/- C118: the processes keep the periods. -/
set_option autoImplicit false

namespace CTng

/-! ### Starting times -/

theorem gerCurrentSecond_eq (t : Instant) : gerCurrentSecond t = itoa t.second := by
  have h := t.second_lt
  rw [gerCurrentSecond, slice17_rfc, atoi_padInt_two _ (by omega)]
  rfl

theorem loggerWait_eq (t : Instant) : loggerWait t = if t.second = 0 then 0 else 60 - t.second := by
  rw [loggerWait, gerCurrentSecond_eq, atoi_itoa]
  by_cases h : t.second = 0
  · rw [h]; decide +kernel
  · have : itoa t.second ≠ go!"0" := by
      intro e
      have := congrArg atoi e
      rw [atoi_itoa] at this
      exact h (Option.some.inj (this.trans (by decide : atoi (go!"0") = some 0)))
    rw [if_pos this, if_neg h]
    rfl

theorem caWait_eq (t : Instant) : caWait t = if t.second = 0 then 0 else 61 - t.second := by
  have h := t.second_lt
  unfold caWait
  rw [gerCurrentSecond_eq, atoi_itoa]
  simp only [Option.getD_some]
  by_cases h0 : t.second = 0
  · simp [h0]
  · rw [if_pos h0, if_neg h0]; omega

theorem gossiperWait_eq (mmd : Nat) (t : Instant) : gossiperWait mmd t = some (mmd - t.second) := by
  obtain ⟨w, hw, _, _, h⟩ := C72_waiting_time mmd t
  rw [gossiperWait, hw]
  simp only [Option.map_some, Option.some.injEq]
  omega

/-- Total lateness of the calls up to the `k`-th. -/
def Timers.total (T : Timers) : Nat → Nat
  | 0 => T.late 0
  | k + 1 => T.total k + T.late (k + 1)

theorem tick_eq (T : Timers) (k : Nat) : T.tick k = T.start + k * (T.mmd * 1000) + T.total k := by
  induction k with
  | zero => simp [Timers.tick, Timers.total]
  | succ k ih => rw [Timers.tick, Timers.total, ih, Nat.succ_mul]; omega

/-- A process whose periods begin in the first seconds of a minute: `slack` milliseconds into the minute `m`, one minute apart,
with all delays of its first `n` rounds below what is left of the last 20 seconds. -/
structure Steady (T : Timers) (m slack n : Nat) : Prop where
  mmd : T.mmd = 60
  start : T.start = m * 60000 + slack
  delay : ∀ k, k < n → slack + T.total k + T.hold k < 20000

/-- The `k`-th round ends in the last twenty seconds of the `k`-th minute. -/
theorem Steady.round_minute {T : Timers} {m slack n : Nat} (h : Steady T m slack n) {k : Nat} (hk : k < n) :
    T.round k / 60000 = m + k ∧ (m + k) * 60000 + 40000 ≤ T.round k := by
  have hd := h.delay k hk
  rw [Timers.round, tick_eq, h.mmd, h.start]
  constructor <;> omega

variable (tl : Timeline)

/-- Wherever in a minute a logger is started, its first period begins at a full minute (and the fraction of a second). -/
theorem logger_start (T0 : Nat) : ∃ m, T0 + loggerWait (tl.wall T0) * 1000 = m * 60000 + T0 % 1000 ∧ T0 / 60000 ≤ m ∧
    m ≤ T0 / 60000 + 1 := by
  rw [loggerWait_eq, tl.wall_second]
  by_cases h : T0 / 1000 % 60 = 0
  · rw [if_pos h]
    exact ⟨T0 / 60000, by omega, by omega, by omega⟩
  · rw [if_neg h]
    exact ⟨T0 / 60000 + 1, by omega, by omega, by omega⟩

/-- A CA's first period begins up to one second later. -/
theorem ca_start (T0 : Nat) : ∃ m d, T0 + caWait (tl.wall T0) * 1000 = m * 60000 + (d + T0 % 1000) ∧ (d = 0 ∨ d = 1000) ∧
    T0 / 60000 ≤ m ∧ m ≤ T0 / 60000 + 1 := by
  rw [caWait_eq, tl.wall_second]
  by_cases h : T0 / 1000 % 60 = 0
  · rw [if_pos h]
    exact ⟨T0 / 60000, 0, by omega, by omega, by omega, by omega⟩
  · rw [if_neg h]
    exact ⟨T0 / 60000 + 1, 1000, by omega, by omega, by omega, by omega⟩

/-! ### Timed histories -/

/-- The instants at which the rounds of a logger's history end. -/
def logFinishes : List LoggerEvent → List Instant
  | [] => []
  | .finish t :: r => t :: logFinishes r
  | .precert _ :: r => logFinishes r
  | .request _ :: r => logFinishes r

def caFinishes : List CAEvent → List Instant
  | [] => []
  | .finish t _ :: r => t :: caFinishes r
  | .start _ :: r => caFinishes r
  | .request _ :: r => caFinishes r
  | .sth _ :: r => caFinishes r
  | .poi _ :: r => caFinishes r
  | .revoke _ :: r => caFinishes r

theorem logFinishes_split {evs : List LoggerEvent} {l : List Instant} {t : Instant} {r : List Instant}
    (h : logFinishes evs = l ++ t :: r) : ∃ pre post, evs = pre ++ .finish t :: post ∧ logFinishes pre = l ∧
      logFinishes post = r := by
  induction evs generalizing l with
  | nil => simp [logFinishes] at h
  | cons e es ih =>
    cases e with
    | finish u =>
      cases l with
      | nil =>
        simp only [logFinishes, List.nil_append, List.cons.injEq] at h
        exact ⟨[], es, by rw [h.1]; rfl, rfl, h.2⟩
      | cons a l =>
        simp only [logFinishes, List.cons_append, List.cons.injEq] at h
        obtain ⟨pre, post, rfl, h2, h3⟩ := ih h.2
        exact ⟨.finish u :: pre, post, rfl, by rw [logFinishes, h2, h.1], h3⟩
    | precert b =>
      obtain ⟨pre, post, rfl, h2, h3⟩ := ih h
      exact ⟨.precert b :: pre, post, rfl, h2, h3⟩
    | request u =>
      obtain ⟨pre, post, rfl, h2, h3⟩ := ih h
      exact ⟨.request u :: pre, post, rfl, h2, h3⟩

theorem caFinishes_split {evs : List CAEvent} {l : List Instant} {t : Instant} {r : List Instant}
    (h : caFinishes evs = l ++ t :: r) : ∃ pre pos post, evs = pre ++ .finish t pos :: post ∧ caFinishes pre = l ∧
      caFinishes post = r := by
  induction evs generalizing l with
  | nil => simp [caFinishes] at h
  | cons e es ih =>
    cases e with
    | finish u pos =>
      cases l with
      | nil =>
        simp only [caFinishes, List.nil_append, List.cons.injEq] at h
        exact ⟨[], pos, es, by rw [h.1]; rfl, rfl, h.2⟩
      | cons a l =>
        simp only [caFinishes, List.cons_append, List.cons.injEq] at h
        obtain ⟨pre, pos', post, rfl, h2, h3⟩ := ih h.2
        exact ⟨.finish u pos :: pre, pos', post, rfl, by rw [caFinishes, h2, h.1], h3⟩
    | start b =>
      obtain ⟨pre, p, post, rfl, h2, h3⟩ := ih h
      exact ⟨.start b :: pre, p, post, rfl, h2, h3⟩
    | request u =>
      obtain ⟨pre, p, post, rfl, h2, h3⟩ := ih h
      exact ⟨.request u :: pre, p, post, rfl, h2, h3⟩
    | sth u =>
      obtain ⟨pre, p, post, rfl, h2, h3⟩ := ih h
      exact ⟨.sth u :: pre, p, post, rfl, h2, h3⟩
    | poi u =>
      obtain ⟨pre, p, post, rfl, h2, h3⟩ := ih h
      exact ⟨.poi u :: pre, p, post, rfl, h2, h3⟩
    | revoke u =>
      obtain ⟨pre, p, post, rfl, h2, h3⟩ := ih h
      exact ⟨.revoke u :: pre, p, post, rfl, h2, h3⟩

theorem logUntouched_of {m : Nat} {evs : List LoggerEvent} (h : ∀ t ∈ logFinishes evs, t.minute + 1 ≠ m) :
    logUntouched m evs := by
  induction evs with
  | nil => exact True.intro
  | cons e r ih =>
    cases e with
    | finish t => exact ⟨h t (by simp [logFinishes]), ih fun u hu => h u (by simp [logFinishes, hu])⟩
    | precert b => exact ih h
    | request t => exact ih h

theorem untouched_of {m : Nat} {evs : List CAEvent} (h : ∀ t ∈ caFinishes evs, t.minute + 1 ≠ m) :
    untouched m evs := by
  induction evs with
  | nil => exact True.intro
  | cons e r ih =>
    cases e with
    | finish t p => exact ⟨h t (by simp [caFinishes]), ih fun u hu => h u (by simp [caFinishes, hu])⟩
    | _ => exact ih h

theorem loggerRun_split {L : Lib} (X : XLib) (c : LoggerConf L) {a b : List LoggerEvent} {s s' : LoggerState}
    (h : loggerRun X c s (a ++ b) = some s') : ∃ s1, loggerRun X c s a = some s1 ∧ loggerRun X c s1 b = some s' := by
  induction a generalizing s with
  | nil => exact ⟨s, rfl, h⟩
  | cons e t ih =>
    simp only [List.cons_append, loggerRun] at h ⊢
    cases hs : loggerStep X c s e with
    | none => rw [hs] at h; cases h
    | some s1 => rw [hs] at h; exact ih h

theorem caRun_split {L : Lib} (X : XLib) (c : CAConf L) (root : Cert) {a b : List CAEvent} {s s' : CAState}
    (h : caRun X c root s (a ++ b) = some s') : ∃ s1, caRun X c root s a = some s1 ∧ caRun X c root s1 b = some s' := by
  induction a generalizing s with
  | nil => exact ⟨s, rfl, h⟩
  | cons e t ih =>
    simp only [List.cons_append, caRun] at h ⊢
    cases hs : caStep X c root s e with
    | none => rw [hs] at h; cases h
    | some s1 => rw [hs] at h; exact ih h

/-- The rounds of a process up to the time `q`: the first `n`, and they end in this order at the times of the timers. -/
structure RoundsUntil (T : Timers) (q n : Nat) : Prop where
  past : ∀ k, k < n → T.round k ≤ q
  next : q < T.round n

theorem range_split {α : Type} (f : Nat → α) {j n : Nat} (h : j < n) :
    (List.range n).map f = (List.range j).map f ++ f j :: (List.range' (j + 1) (n - (j + 1))).map f := by
  have : List.range n = List.range j ++ j :: List.range' (j + 1) (n - (j + 1)) := by
    rw [List.range_eq_range', List.range_eq_range']
    have e : List.range' 0 n = List.range' 0 j ++ List.range' j (n - j) := by
      have := List.range'_append (s := 0) (m := j) (n := n - j) (step := 1)
      simp only [Nat.one_mul, Nat.zero_add] at this
      rw [this]; congr 1; omega
    rw [e]
    congr 1
    obtain ⟨d, hd⟩ : ∃ d, n - j = d + 1 := ⟨n - j - 1, by omega⟩
    rw [hd, List.range'_succ]
    congr 2
    omega
  rw [this, List.map_append, List.map_cons]

section Logger
variable {L : Lib} (X : XLib) (c : LoggerConf L)

/-- In the minute after round `j` the rounds after `j` that are over carry another label. -/
theorem Steady.later {T : Timers} {m slack n q j : Nat} (h : Steady T m slack (n + 1)) (hq : RoundsUntil T q n)
    (hj : m + j + 1 = q / 60000) {i : Nat} (hi : i ∈ List.range' (j + 1) (n - (j + 1))) :
    (tl.wall (T.round i)).minute + 1 ≠ (tl.wall q).minute := by
  simp only [List.mem_range'_1] at hi
  have h1 := (h.round_minute (k := i) (by omega)).1
  have h2 := hq.past i (by omega)
  have h3 : i = j + 1 := by
    have := Nat.div_le_div_right (c := 60000) h2
    omega
  rw [tl.wall_minute, tl.wall_minute, h1, ← hj, h3]
  omega

/-- C118 for loggers. Whenever an honest logger with a period of 60 seconds was started, and as long as the lateness of its timers
has not added up to the last twenty seconds of a minute: from its second minute on, in every minute but the first of each hour,
it answers with the tree head it built in the last twenty seconds of the minute before, over the certificates it held then,
labelled with the current minute. Missing for the full property: minute 0, other periods, late timers. -/
theorem C118_logger_on_time_partial (hc : c.loggerType = 0) (T0 : Nat) (T : Timers) (hm : T.mmd = 60)
    (hs : T.start = T0 + loggerWait (tl.wall T0) * 1000) (q n : Nat)
    (hd : ∀ k, k ≤ n → T0 % 1000 + T.total k + T.hold k < 20000) (hq : RoundsUntil T q n)
    (evs : List LoggerEvent) (s : LoggerState) (hr : loggerRun X c initLogger evs = some s)
    (hf : logFinishes evs = (List.range n).map fun k => tl.wall (T.round k))
    (h1 : T.start / 60000 + 1 ≤ q / 60000) (h0 : (tl.wall q).minute ≠ 0) :
    ∃ pre r post s1 b, evs = pre ++ .finish (tl.wall r) :: post ∧ r / 60000 + 1 = q / 60000 ∧ 40 ≤ (tl.wall r).second ∧
      loggerRun X c initLogger pre = some s1 ∧
      buildMerkle X c (tl.wall r) s1.pool.getCerts (tl.wall q).minute = some b ∧
      b.sth.period = itoa (tl.wall q).minute ∧ (requestSTH c (tl.wall q) s).1 = .obj b.sth := by
  obtain ⟨m, hms, _, _⟩ := logger_start tl T0
  have st : Steady T m (T0 % 1000) (n + 1) := ⟨hm, by rw [hs, hms], fun k hk => hd k (by omega)⟩
  have hmS : T.start / 60000 = m := by rw [st.start]; omega
  obtain ⟨j, hj⟩ : ∃ j, m + j + 1 = q / 60000 := ⟨q / 60000 - m - 1, by omega⟩
  have hjn : j < n := by
    have h2 := (st.round_minute (k := n) (by omega)).1
    have h3 := Nat.div_le_div_right (c := 60000) (Nat.le_of_lt hq.next)
    omega
  rw [range_split _ hjn] at hf
  obtain ⟨pre, post, rfl, _, h3⟩ := logFinishes_split hf
  obtain ⟨s1, hp, hr⟩ := loggerRun_split X c hr
  simp only [loggerRun] at hr
  split at hr
  · cases hr
  rename_i s2 hs2
  have hjr := st.round_minute (k := j) (by omega)
  have hmin : (tl.wall q).minute = (tl.wall (T.round j)).minute + 1 := by
    rw [tl.wall_minute] at h0 ⊢
    rw [tl.wall_minute, hjr.1]
    omega
  have hu : logUntouched (tl.wall q).minute post := by
    refine logUntouched_of fun t ht => ?_
    rw [h3] at ht
    obtain ⟨i, hi, rfl⟩ := List.mem_map.1 ht
    exact st.later tl hq hj hi
  obtain ⟨b, hb, hper, _, _, ha⟩ := C59_logger_partial X c hc (tl.wall (T.round j)) (tl.wall q) hmin post s1 s2 s hs2 hr hu
  refine ⟨pre, T.round j, post, s1, b, rfl, by rw [hjr.1]; omega, ?_, hp, hb, hper, ha⟩
  rw [tl.wall_second]
  omega

/-- The last round that wrote the label `m`, if any. -/
theorem lastRound (m : Nat) (evs : List LoggerEvent) : logUntouched m evs ∨
    ∃ pre t post, evs = pre ++ .finish t :: post ∧ t.minute + 1 = m ∧ logUntouched m post := by
  induction evs with
  | nil => exact .inl True.intro
  | cons e es ih =>
    rcases ih with ih | ⟨pre, t, post, rfl, h2, h3⟩
    · cases e with
      | finish t =>
        by_cases h : t.minute + 1 = m
        · exact .inr ⟨[], t, es, rfl, h, ih⟩
        · exact .inl ⟨h, ih⟩
      | precert b => exact .inl ih
      | request t => exact .inl ih
    · exact .inr ⟨e :: pre, t, post, rfl, h2, h3⟩

theorem untouched_answer (hc : c.loggerType = 0) {evs : List LoggerEvent} {s : LoggerState}
    (h : loggerRun X c initLogger evs = some s) {t : Instant} (hu : logUntouched t.minute evs) :
    (requestSTH c t s).1 = .obj GossipObj.zero := by
  have hf := (logStored_frame X c t.minute t.minute_lt evs h hu).1
  rw [requestSTH_eq, hc]
  simp only [decide6, storedSTH, hf]
  rfl

/-- If the lateness of the timers adds up without bound, some minute passes without a round. -/
theorem minute_skipped (T : Timers) (hm : T.mmd = 60) (hh : ∀ k, T.hold k = 0) (hl : ∀ B, ∃ k, B ≤ T.total k) :
    ∃ N, T.round 0 / 60000 < N ∧ ∀ k, T.round k / 60000 ≠ N := by
  have step : ∀ k, T.round (k + 1) = T.round k + 60000 + T.late (k + 1) := by
    intro k
    simp only [Timers.round, Timers.tick, hm, hh]
    omega
  have mono : ∀ d k, T.round k / 60000 + d ≤ T.round (k + d) / 60000 := by
    intro d
    induction d with
    | zero => intro k; simp
    | succ d ih =>
      intro k
      have := ih k
      have := step (k + d)
      rw [show k + (d + 1) = k + d + 1 from rfl]
      omega
  apply Classical.byContradiction
  intro hno
  have hit : ∀ N, T.round 0 / 60000 < N → ∃ k, T.round k / 60000 = N := by
    intro N hN
    apply Classical.byContradiction
    intro hk
    exact hno ⟨N, hN, fun k e => hk ⟨k, e⟩⟩
  have all : ∀ k, T.round k / 60000 = T.round 0 / 60000 + k := by
    intro k
    induction k with
    | zero => rfl
    | succ k ih =>
      obtain ⟨i, hi⟩ := hit (T.round 0 / 60000 + (k + 1)) (by omega)
      have hik : i = k + 1 := by
        rcases Nat.lt_trichotomy i (k + 1) with h | h | h
        · have := mono (k - i) i
          rw [show i + (k - i) = k by omega] at this
          omega
        · exact h
        · have := mono (i - (k + 1)) (k + 1)
          rw [show k + 1 + (i - (k + 1)) = i by omega] at this
          have := mono 1 k
          omega
      rw [← hik, hi, hik]
  obtain ⟨k, hk⟩ := hl (T.total 0 + 120000)
  have e := all k
  have e0 : T.round k = T.round 0 + k * 60000 + (T.total k - T.total 0) := by
    simp only [Timers.round, tick_eq, hm, hh, Timers.total]
    have : T.late 0 ≤ T.total k := by simp only [Timers.total] at hk; omega
    omega
  omega

/-- C118 fails when timers are late: each call of the periodic task is counted from the actual beginning of the one before, so
that lateness accumulates, and once it does without bound a minute passes without a round. In the minute after it every honest
logger answers with the empty object or with a tree head that is at least an hour old. -/
theorem C118_violated_late_timers (hc : c.loggerType = 0) (T : Timers) (hm : T.mmd = 60) (hh : ∀ k, T.hold k = 0)
    (hl : ∀ B, ∃ k, B ≤ T.total k) :
    ∃ N, T.round 0 / 60000 < N ∧ ∀ (q n : Nat) (evs : List LoggerEvent) (s : LoggerState), q / 60000 = N + 1 →
      RoundsUntil T q n → loggerRun X c initLogger evs = some s →
      logFinishes evs = ((List.range n).map fun k => tl.wall (T.round k)) →
      (requestSTH c (tl.wall q) s).1 = .obj GossipObj.zero ∨
      ∃ pre r post s1 b, evs = pre ++ .finish (tl.wall r) :: post ∧ r / 60000 + 61 ≤ q / 60000 ∧
        loggerRun X c initLogger pre = some s1 ∧
        buildMerkle X c (tl.wall r) s1.pool.getCerts (tl.wall q).minute = some b ∧
        (requestSTH c (tl.wall q) s).1 = .obj b.sth := by
  obtain ⟨N, hN, hno⟩ := minute_skipped T hm hh hl
  refine ⟨N, hN, fun q n evs s hqN hq hr hf => ?_⟩
  rcases lastRound (tl.wall q).minute evs with hu | ⟨pre, t, post, rfl, ht, hu⟩
  · exact .inl (untouched_answer X c hc hr hu)
  · have hmem : t ∈ logFinishes (pre ++ .finish t :: post) := by
      clear hf hr
      induction pre with
      | nil => simp [logFinishes]
      | cons e es ih => cases e <;> simp [logFinishes, ih]
    rw [hf] at hmem
    obtain ⟨k, hk, rfl⟩ := List.mem_map.1 hmem
    obtain ⟨s1, hp, hr⟩ := loggerRun_split X c hr
    simp only [loggerRun] at hr
    split at hr
    · cases hr
    rename_i s2 hs2
    obtain ⟨b, hb, _, _, _, ha⟩ := C59_logger_partial X c hc _ (tl.wall q) ht.symm post s1 s2 s hs2 hr hu
    refine .inr ⟨pre, T.round k, post, s1, b, rfl, ?_, hp, hb, ha⟩
    have h1 := hq.past k (List.mem_range.1 hk)
    have h2 := hno k
    rw [tl.wall_minute, tl.wall_minute] at ht
    have h3 := Nat.div_le_div_right (c := 60000) h1
    omega

/-- C118 fails for other periods than 60 seconds: with a period of two minutes, a logger and a monitor started in the same minute
(the logger not in its first second) work in different minutes for ever. Every query of the monitor is answered with the empty
object, though all timers are exact. -/
theorem C118_violated_two_minutes (hc : c.loggerType = 0) (T0 T1 : Nat) (h01 : T1 / 60000 = T0 / 60000)
    (h0 : (tl.wall T0).second ≠ 0) (T U : Timers) (hT : T.mmd = 120) (hU : U.mmd = 120)
    (hTs : T.start = T0 + loggerWait (tl.wall T0) * 1000) (w : Nat) (hw : monitorWait 120 0 0 (tl.wall T1) = some w)
    (hUs : U.start = T1 + w) (hl : ∀ k, T.late k = 0 ∧ T.hold k = 0 ∧ U.late k = 0) (k n : Nat)
    (evs : List LoggerEvent) (s : LoggerState) (hr : loggerRun X c initLogger evs = some s)
    (hf : logFinishes evs = (List.range n).map fun k => tl.wall (T.round k)) :
    (requestSTH c (tl.wall (U.query 0 k)) s).1 = .obj GossipObj.zero := by
  refine untouched_answer X c hc hr (logUntouched_of fun t ht => ?_)
  rw [hf] at ht
  obtain ⟨i, _, rfl⟩ := List.mem_map.1 ht
  have tot : ∀ (V : Timers), (∀ k, V.late k = 0) → ∀ k, V.total k = 0 := by
    intro V hV k
    induction k with
    | zero => exact hV 0
    | succ k ih => rw [Timers.total, ih, hV]
  have e1 : T.round i = T.start + i * 120000 + 100000 := by
    have a := tick_eq T i
    rw [tot T (fun k => (hl k).1), hT] at a
    rw [Timers.round, (hl i).2.1, hT]
    omega
  have e2 : U.query 0 k = U.start + k * 120000 := by
    have a := tick_eq U k
    rw [tot U (fun k => (hl k).2.2), hU] at a
    rw [Timers.query]
    omega
  have hw' : w = (120 - T1 / 1000 % 60) * 1000 := by
    simp only [monitorWait, gossiperWait_eq, Option.map_some, if_true, Option.some.injEq, tl.wall_second] at hw
    omega
  rw [loggerWait_eq, if_neg h0, tl.wall_second] at hTs
  rw [tl.wall_second] at h0
  rw [tl.wall_minute, tl.wall_minute, e1, e2, hTs, hUs, hw']
  have a1 : (T0 + (60 - T0 / 1000 % 60) * 1000 + i * 120000 + 100000) / 60000 = T0 / 60000 + 2 + 2 * i := by omega
  have a2 : (T1 + (120 - T1 / 1000 % 60) * 1000 + k * 120000) / 60000 = T1 / 60000 + 2 + 2 * k := by omega
  rw [a1, a2, h01]
  omega

end Logger

section CA
variable {L : Lib} (X : XLib) (c : CAConf L) (root : Cert)

/-- C118 for CAs. Whenever an honest CA with a period of 60 seconds was started, and as long as issuing and sending a period's
certificates and the lateness of its timers leave a rest of the twenty seconds before the end of the minute: from its second
minute on, in every minute but the first of each hour, it answers with the revocation it built at the end of the minute before,
labelled with the current minute. Missing for the full property: minute 0, other periods, slow rounds. -/
theorem C118_ca_on_time_partial (hc : c.caType = 0) (sha : Str → Str) (signer pub : Str) (T0 : Nat) (T : Timers) (hm : T.mmd = 60)
    (hs : T.start = T0 + caWait (tl.wall T0) * 1000) (q n : Nat)
    (hd : ∀ k, k ≤ n → (if (tl.wall T0).second = 0 then 0 else 1000) + T0 % 1000 + T.total k + T.hold k < 20000) (hq : RoundsUntil T q n)
    (evs : List CAEvent) (s : CAState) (hr : caRun X c root (initCA X sha signer pub).2 evs = some s)
    (hf : caFinishes evs = (List.range n).map fun k => tl.wall (T.round k))
    (h1 : T.start / 60000 + 1 ≤ q / 60000) (h0 : (tl.wall q).minute ≠ 0) :
    ∃ pre r pos post s1 rev, evs = pre ++ .finish (tl.wall r) pos :: post ∧ r / 60000 + 1 = q / 60000 ∧
      40 ≤ (tl.wall r).second ∧ caRun X c root (initCA X sha signer pub).2 pre = some s1 ∧
      generateRevocation X c { s1 with crv := if s1.fresh then s1.crv.massRevoke pos else s1.crv, fresh := false }
        (itoa (tl.wall q).minute) false = some rev ∧
      rev.period = itoa (tl.wall q).minute ∧ (requestREV c (tl.wall q) s).1 = .obj rev := by
  have hslack : T.start % 60000 = (if (tl.wall T0).second = 0 then 0 else 1000) + T0 % 1000 := by
    rw [hs, caWait_eq, tl.wall_second]
    split <;> omega
  have st : Steady T (T.start / 60000) (T.start % 60000) (n + 1) :=
    ⟨hm, by omega, fun k hk => by rw [hslack]; exact hd k (by omega)⟩
  obtain ⟨j, hj⟩ : ∃ j, T.start / 60000 + j + 1 = q / 60000 := ⟨q / 60000 - T.start / 60000 - 1, by omega⟩
  have hjn : j < n := by
    have h2 := (st.round_minute (k := n) (by omega)).1
    have h3 := Nat.div_le_div_right (c := 60000) (Nat.le_of_lt hq.next)
    omega
  rw [range_split _ hjn] at hf
  obtain ⟨pre, pos, post, rfl, _, h3⟩ := caFinishes_split hf
  obtain ⟨s1, hp, hr⟩ := caRun_split X c root hr
  simp only [caRun] at hr
  split at hr
  · cases hr
  rename_i s2 hs2
  have hjr := st.round_minute (k := j) (by omega)
  have hmin : (tl.wall q).minute = (tl.wall (T.round j)).minute + 1 := by
    rw [tl.wall_minute] at h0 ⊢
    rw [tl.wall_minute, hjr.1]
    omega
  have hu : untouched (tl.wall q).minute post := by
    refine untouched_of fun t ht => ?_
    rw [h3] at ht
    obtain ⟨i, hi, rfl⟩ := List.mem_map.1 ht
    exact st.later tl hq hj hi
  obtain ⟨rev, hrev, hper, _, _, ha⟩ := C59_ca_partial X c root hc (tl.wall (T.round j)) (tl.wall q) hmin pos post s1 s2 s hs2 hr hu
  refine ⟨pre, T.round j, pos, post, s1, rev, rfl, by rw [hjr.1]; omega, ?_, hp, hrev, hper, ha⟩
  rw [tl.wall_second]
  omega

/-- The beginning of a CA's periods: less than two seconds into a minute. -/
theorem C118_ca_start (T0 : Nat) : (T0 + caWait (tl.wall T0) * 1000) % 60000 < 2000 := by
  obtain ⟨m, d, h, hd, _, _⟩ := ca_start tl T0
  rw [h]
  omega

end CA

section Monitor
variable {L : Lib} (X : XLib) (c : MonConf L)
open Mon

/-- C118 for monitors of mode 0 with a period of 60 seconds: as long as clock drift and lateness leave a rest of the twenty
seconds, the update written in a round is dated with the minute in which the queries of that round were started, and lists
exactly what the monitor holds of that minute without a conflict proof. Missing for the full property: other modes and periods,
late timers. -/
theorem C118_update_on_time_partial (T0 drift maxdrift : Nat) (T : Timers) (hm : T.mmd = 60) (w : Nat)
    (hw : monitorWait 60 0 drift (tl.wall T0) = some w) (hs : T.start = T0 + w) (k : Nat)
    (hd : T0 % 1000 + drift + T.total k + T.hold k < 20000) (hx : T0 % 1000 + drift + T.total k + maxdrift < 60000)
    (evs : List MonEvent) (s s' : MonState) (hr : monRun X c initMonitor evs = some s) (clk : Clock)
    (hc : clk.period = getCurrentPeriod (tl.wall (T.round k))) (hf : monStep X c s (.finish clk) = some s') :
    ∃ u, s'.files.get (periodIO c clk) = some u ∧ u.period = getCurrentPeriod (tl.wall (T.query maxdrift k)) ∧
      (∀ g, g ∈ u.sths ↔ s.sthFull.get g.getID = some g ∧ g.period = getCurrentPeriod (tl.wall (T.query maxdrift k)) ∧
        s.conflictPom.get ⟨go!"0", .CON_INIT, g.payload.p0⟩ = none) ∧
      (∀ g, g ∈ u.revs ↔ s.revFull.get g.getID = some g ∧ g.period = getCurrentPeriod (tl.wall (T.query maxdrift k)) ∧
        s.conflictPom.get ⟨go!"0", .CON_INIT, g.payload.p0⟩ = none) := by
  have hsec : (tl.wall T0).second = T0 / 1000 % 60 := tl.wall_second T0
  have hstart : T.start = (T0 / 60000 + 1) * 60000 + (T0 % 1000 + drift) := by
    simp only [monitorWait, gossiperWait_eq, Option.map_some, if_true, Option.some.injEq, hsec] at hw
    omega
  have e : getCurrentPeriod (tl.wall (T.round k)) = getCurrentPeriod (tl.wall (T.query maxdrift k)) := by
    have a := tick_eq T k
    rw [hm, hstart] at a
    have b1 : T.query maxdrift k / 60000 = T0 / 60000 + 1 + k := by rw [Timers.query]; omega
    have b2 : T.round k / 60000 = T0 / 60000 + 1 + k := by rw [Timers.round, hm]; omega
    rw [C72_period_identifies_minute, tl.wall_minute, tl.wall_minute, b1, b2]
  obtain ⟨u, h1, h2, _, _, h3, h4, _, _⟩ := C43_update_exact X c evs s s' clk hr hf
  rw [← e, ← hc]
  exact ⟨u, h1, h2, h3, h4⟩

/-- C118 fails for a monitor of mode 0 whose configured delay of the queries takes them into the next minute: the update is
written before the queries go out, and lists nothing of the minute that is queried. -/
theorem C118_violated_late_queries (T0 drift maxdrift : Nat) (T : Timers) (hm : T.mmd = 60) (w : Nat)
    (hw : monitorWait 60 0 drift (tl.wall T0) = some w) (hs : T.start = T0 + w) (k : Nat)
    (hd : T0 % 1000 + drift + T.total k + T.hold k < 20000) (hx : 60000 ≤ T0 % 1000 + drift + T.total k + maxdrift)
    (hx' : T0 % 1000 + drift + T.total k + maxdrift < 120000)
    (evs : List MonEvent) (s s' : MonState) (hr : monRun X c initMonitor evs = some s) (clk : Clock)
    (hc : clk.period = getCurrentPeriod (tl.wall (T.round k))) (hf : monStep X c s (.finish clk) = some s') :
    T.round k < T.query maxdrift k ∧ ∃ u, s'.files.get (periodIO c clk) = some u ∧
      ∀ g, g ∈ u.sths ∨ g ∈ u.revs → g.period ≠ getCurrentPeriod (tl.wall (T.query maxdrift k)) := by
  have hsec : (tl.wall T0).second = T0 / 1000 % 60 := tl.wall_second T0
  have hstart : T.start = (T0 / 60000 + 1) * 60000 + (T0 % 1000 + drift) := by
    simp only [monitorWait, gossiperWait_eq, Option.map_some, if_true, Option.some.injEq, hsec] at hw
    omega
  have a := tick_eq T k
  rw [hm, hstart] at a
  have b1 : T.query maxdrift k / 60000 = T0 / 60000 + 1 + k + 1 := by rw [Timers.query]; omega
  have b2 : T.round k / 60000 = T0 / 60000 + 1 + k := by rw [Timers.round, hm]; omega
  have e : getCurrentPeriod (tl.wall (T.round k)) ≠ getCurrentPeriod (tl.wall (T.query maxdrift k)) := by
    intro h
    have h' := (C72_period_identifies_minute _ _).1 h
    rw [tl.wall_minute, tl.wall_minute, b1, b2] at h'
    clear a b1 b2 h hx hx' hd hstart hsec hs
    omega
  refine ⟨by omega, ?_⟩
  obtain ⟨u, h1, _, _, _, h3, h4, _, _⟩ := C43_update_exact X c evs s s' clk hr hf
  refine ⟨u, h1, fun g hg => ?_⟩
  rcases hg with hg | hg
  · rw [((h3 g).1 hg).2.1, hc]; exact e
  · rw [((h4 g).1 hg).2.1, hc]; exact e

/-- C118 fails for the other modes: a monitor that does not wait for the full minute and is started after its first twenty seconds
writes each update in the minute after its queries. No update lists a tree head or a revocation of the minute that was queried,
though all timers are exact. -/
theorem C118_violated_other_mode (T0 mode : Nat) (hmode : mode ≠ 0) (h20 : 20 ≤ (tl.wall T0).second) (T : Timers) (hm : T.mmd = 60)
    (w : Nat) (hw : monitorWait 60 mode 0 (tl.wall T0) = some w) (hs : T.start = T0 + w)
    (hl : ∀ k, T.late k = 0 ∧ T.hold k = 0) (k : Nat)
    (evs : List MonEvent) (s s' : MonState) (hr : monRun X c initMonitor evs = some s) (clk : Clock)
    (hc : clk.period = getCurrentPeriod (tl.wall (T.round k))) (hf : monStep X c s (.finish clk) = some s') :
    ∃ u, s'.files.get (periodIO c clk) = some u ∧
      ∀ g, g ∈ u.sths ∨ g ∈ u.revs → g.period ≠ getCurrentPeriod (tl.wall (T.query 0 k)) := by
  rw [monitorWait, if_neg hmode] at hw
  cases hw
  have tot : ∀ k, T.total k = 0 := by
    intro k
    induction k with
    | zero => exact (hl 0).1
    | succ k ih => rw [Timers.total, ih, (hl _).1]
  rw [tl.wall_second] at h20
  have e : getCurrentPeriod (tl.wall (T.round k)) ≠ getCurrentPeriod (tl.wall (T.query 0 k)) := by
    have a := tick_eq T k
    rw [tot, hm] at a
    have a1 : T.query 0 k = T0 + k * 60000 := by rw [Timers.query]; omega
    have a2 : T.round k = T0 + k * 60000 + 40000 := by rw [Timers.round, (hl k).2, hm]; omega
    have b1 : T.query 0 k / 60000 = T0 / 60000 + k := by omega
    have b2 : T.round k / 60000 = T0 / 60000 + k + 1 := by omega
    intro h
    have h' := (C72_period_identifies_minute _ _).1 h
    rw [tl.wall_minute, tl.wall_minute, b1, b2] at h'
    clear a a1 a2 b1 b2 h
    omega
  obtain ⟨u, h1, _, _, _, h3, h4, _, _⟩ := C43_update_exact X c evs s s' clk hr hf
  refine ⟨u, h1, fun g hg => ?_⟩
  rcases hg with hg | hg
  · rw [((h3 g).1 hg).2.1, hc]; exact e
  · rw [((h4 g).1 hg).2.1, hc]; exact e

end Monitor

/-! ### Concrete cases -/

namespace Ref

/-- The first of January 2024, repeated for ever. -/
def timeline : Timeline where
  wall T := ⟨2024, 1, 1, T / 3600000 % 24, T / 60000 % 60, T / 1000 % 60, by decide, by decide, by decide,
    Nat.mod_lt _ (by decide), Nat.mod_lt _ (by decide), Nat.mod_lt _ (by decide)⟩
  wall_second _ := rfl
  wall_minute _ := rfl

/-- A logger called at 00:57:12.345 works from 00:58:00.345 on. Its timers are 10 ms late each. -/
def logTimers : Timers := ⟨3432345 + loggerWait (timeline.wall 3432345) * 1000, 60, fun _ => 10, fun _ => 20⟩

/-- A CA called at the same time begins a second later; issuing takes 5 seconds. -/
def caTimers : Timers := ⟨3432345 + caWait (timeline.wall 3432345) * 1000, 60, fun _ => 10, fun _ => 5000⟩

example : logTimers.start = 58 * 60000 + 345 ∧ caTimers.start = 58 * 60000 + 1345 ∧
    gossiperWait 60 (timeline.wall 3432345) = some 48 ∧ monitorWait 60 0 200 (timeline.wall 3432345) = some 48200 := by
  decide +kernel

/-- C118: the hypotheses for a logger and a request at 00:59:00.9, and a wrong answer would be seen. -/
example : logTimers.mmd = 60 ∧ (∀ k, k ≤ 1 → 3432345 % 1000 + logTimers.total k + logTimers.hold k < 20000) ∧
    RoundsUntil logTimers 3540900 1 ∧ logTimers.start / 60000 + 1 ≤ 3540900 / 60000 ∧
    (timeline.wall 3540900).minute ≠ 0 ∧
    ((loggerRun xlib logConf initLogger [.precert leafA.raw, .precert leafB.raw, .finish (timeline.wall (logTimers.round 0))]).map
      fun s => ((requestSTH logConf (timeline.wall 3540900) s).1 == .obj GossipObj.zero,
        (requestSTH logConf (timeline.wall 3539900) s).1 == .obj GossipObj.zero)) = some (false, true) := by
  refine ⟨rfl, ?_, ⟨?_, by decide +kernel⟩, by decide +kernel, by decide +kernel, by decide +kernel⟩
  · intro k hk
    have : k = 0 ∨ k = 1 := by omega
    rcases this with rfl | rfl <;> decide +kernel
  · intro k hk
    have : k = 0 := by omega
    subst this
    decide +kernel

/-- C118: the hypotheses for a CA and a request at 00:59:00.9. -/
example : (∀ k, k ≤ 1 → (if (timeline.wall 3432345).second = 0 then 0 else 1000) + 3432345 % 1000 + caTimers.total k +
      caTimers.hold k < 20000) ∧ RoundsUntil caTimers 3540900 1 ∧ caTimers.start / 60000 + 1 ≤ 3540900 / 60000 ∧
    ((caRun xlib caConf caRoot caInit [.revoke 4, .finish (timeline.wall (caTimers.round 0)) []]).map
      fun s => (requestREV caConf (timeline.wall 3540900) s).1 == .obj GossipObj.zero) = some false := by
  refine ⟨?_, ⟨?_, by decide +kernel⟩, by decide +kernel, by decide +kernel⟩
  · intro k hk
    have : k = 0 ∨ k = 1 := by omega
    rcases this with rfl | rfl <;> decide +kernel
  · intro k hk
    have : k = 0 := by omega
    subst this
    decide +kernel

/-- Timers that are one millisecond late. -/
def slowTimers : Timers := { logTimers with late := fun _ => 1, hold := fun _ => 0 }

/-- C118: the lateness adds up. -/
example : slowTimers.mmd = 60 ∧ (∀ k, slowTimers.hold k = 0) ∧ ∀ B, ∃ k, B ≤ slowTimers.total k := by
  refine ⟨rfl, fun _ => rfl, fun B => ⟨B, ?_⟩⟩
  have : ∀ k, slowTimers.total k = k + 1 := by
    intro k
    induction k with
    | zero => rfl
    | succ k ih => rw [Timers.total, ih]; rfl
  rw [this]
  omega

/-- C118: periods of two minutes, a logger started at 00:00:12 and a monitor at 00:00:05. The logger has a tree head for minute 3
when the monitor asks in minute 4. -/
example : (5000 : Nat) / 60000 = 12000 / 60000 ∧ (timeline.wall 12000).second ≠ 0 ∧
    monitorWait 120 0 0 (timeline.wall 5000) = some 115000 ∧
    (let T : Timers := ⟨12000 + loggerWait (timeline.wall 12000) * 1000, 120, fun _ => 0, fun _ => 0⟩
     let U : Timers := ⟨5000 + 115000, 120, fun _ => 0, fun _ => 0⟩
     U.query 0 1 = 4 * 60000 ∧ T.round 0 ≤ U.query 0 1 ∧
     ((loggerRun xlib logConf initLogger [.precert leafA.raw, .precert leafB.raw, .finish (timeline.wall (T.round 0))]).map
       fun s => ((requestSTH logConf (timeline.wall (U.query 0 1)) s).1 == .obj GossipObj.zero,
         (requestSTH logConf (timeline.wall (3 * 60000)) s).1 == .obj GossipObj.zero)) = some (true, false)) := by
  decide +kernel

/-- C118: a monitor of mode 0 called at 00:04:17.2 with a delay of 61 seconds writes the update of minute 5 and queries in
minute 6. -/
example : monitorWait 60 0 200 (timeline.wall 257200) = some 43200 ∧
    (let T : Timers := ⟨257200 + 43200, 60, fun _ => 0, fun _ => 0⟩
     257200 % 1000 + 200 + T.total 0 + T.hold 0 < 20000 ∧ 60000 ≤ 257200 % 1000 + 200 + T.total 0 + 61000 ∧
     257200 % 1000 + 200 + T.total 0 + 61000 < 120000 ∧
     getCurrentPeriod (timeline.wall (T.query 61000 0)) = go!"06" ∧ getCurrentPeriod (timeline.wall (T.round 0)) = clk.period) := by
  decide +kernel

/-- C118: a monitor of mode 0 called at 00:04:17.2 queries at 00:05:00.4 and writes at 00:05:40.4; one of mode 1 called at 00:05:25
writes at 00:06:05. The tree head of minute 5 is in the update of the first and not in that of the second. -/
example : monitorWait 60 0 200 (timeline.wall 257200) = some 43200 ∧
    (let T : Timers := ⟨257200 + 43200, 60, fun _ => 0, fun _ => 0⟩
     getCurrentPeriod (timeline.wall (T.query 1000 0)) = clk.period ∧ getCurrentPeriod (timeline.wall (T.round 0)) = clk.period) ∧
    monitorWait 60 1 0 (timeline.wall 325000) = some 0 ∧ 20 ≤ (timeline.wall 325000).second ∧
    (let U : Timers := ⟨325000, 60, fun _ => 0, fun _ => 0⟩
     getCurrentPeriod (timeline.wall (U.query 0 0)) = clk.period ∧ getCurrentPeriod (timeline.wall (U.round 0)) = go!"06") ∧
    ((monRun xlib monConf initMonitor monHistory).bind fun s =>
      (monStep xlib monConf s (.finish clk)).bind fun s1 => (monStep xlib monConf s (.finish { clk with period := go!"06" })).map fun s2 =>
        ((s1.files.get (go!"2")).map fun u => u.sths == [sthFull05], (s2.files.get (go!"3")).map fun u => u.sths.length)) =
      some (some true, some 0) := by
  decide +kernel

end Ref
end CTng
