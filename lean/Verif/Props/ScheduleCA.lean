import Verif.Props.Schedule
import Verif.Props.ClientExamples
/- C119: the proofs of inclusion of a round reach the CA before it gives up the certificates of that round. -/
set_option autoImplicit false

namespace CTng
variable {L : Lib} (X : XLib) (c : CAConf L) (root : Cert)

/-- The `k`-th round in a CA's history of timed events: what happened before the `k`-th call of the periodic task, between the
call and its second part, and later. Events are in the order of their times. -/
structure CARound (T : Timers) (k : Nat) (h : List (Nat × CAEvent)) (key : Nat → Str) (t : Instant) (pos : List Nat)
    (before mid after : List (Nat × CAEvent)) : Prop where
  split : h = before ++ (T.tick k, .start key) :: (mid ++ (T.round k, .finish t pos) :: after)
  sorted : h.Pairwise fun a b => a.1 ≤ b.1

theorem CARound.mid_times {T : Timers} {k : Nat} {h : List (Nat × CAEvent)} {key : Nat → Str} {t : Instant} {pos : List Nat}
    {before mid after : List (Nat × CAEvent)} (r : CARound T k h key t pos before mid after) :
    (∀ e ∈ before, e.1 ≤ T.tick k) ∧ (∀ e ∈ mid, T.tick k ≤ e.1 ∧ e.1 ≤ T.round k) ∧ ∀ e ∈ after, T.round k ≤ e.1 := by
  have hs := r.sorted
  rw [r.split, List.pairwise_append] at hs
  obtain ⟨_, h2, h3⟩ := hs
  rw [List.pairwise_cons, List.pairwise_append] at h2
  obtain ⟨h2, _, h4, h5⟩ := h2
  rw [List.pairwise_cons] at h4
  refine ⟨fun e he => h3 e he (T.tick k, .start key) (by simp),
    fun e he => ⟨h2 e (by simp [he]), h5 e he (T.round k, .finish t pos) (by simp)⟩, fun e he => h4.1 e he⟩

theorem two_sublist {α : Type} {a b : α} {l : List α} (h : [a, b].Sublist l) : ∃ x y z, l = x ++ a :: y ++ b :: z := by
  induction l with
  | nil => cases h
  | cons c t ih =>
    cases h with
    | cons _ h =>
      obtain ⟨x, y, z, e⟩ := ih h
      exact ⟨c :: x, y, z, by rw [e]; rfl⟩
    | cons_cons _ h =>
      obtain ⟨y, z, e⟩ := List.append_of_mem (List.singleton_sublist.1 h)
      exact ⟨[], y, z, by rw [e]; rfl⟩

/-- Two messages that arrive, in this order, after the call and before its second part are events of the round. -/
theorem CARound.within {T : Timers} {k : Nat} {h : List (Nat × CAEvent)} {key : Nat → Str} {t : Instant} {pos : List Nat}
    {before mid after : List (Nat × CAEvent)} (r : CARound T k h key t pos before mid after) {a b : Nat × CAEvent}
    (hab : [a, b].Sublist h) (h1 : T.tick k < a.1) (h2 : b.1 < T.round k) : ∃ x y z, mid = x ++ a :: y ++ b :: z := by
  obtain ⟨t1, t2, t3⟩ := r.mid_times
  rw [r.split] at hab
  obtain ⟨l1, l2, e, s1, s2⟩ := List.sublist_append_iff.1 hab
  cases l1 with
  | cons u l1 =>
    simp only [List.cons_append, List.cons.injEq] at e
    have := t1 u (s1.subset (by simp))
    rw [← e.1] at this
    omega
  | nil =>
    simp only [List.nil_append] at e
    subst e
    cases s2 with
    | cons_cons => simp at h1
    | cons _ s2 =>
      obtain ⟨m1, m2, e, s1, s2⟩ := List.sublist_append_iff.1 s2
      cases m2 with
      | nil =>
        rw [List.append_nil] at e
        rw [← e] at s1
        exact two_sublist s1
      | cons u m2 =>
        have hb : b ∈ u :: m2 := by
          have : ([a, b] : List _).getLast? = (m1 ++ u :: m2).getLast? := by rw [e]
          rw [List.getLast?_append] at this
          cases hl : (u :: m2).getLast? with
          | none => simp at hl
          | some v =>
            rw [hl] at this
            simp only [List.getLast?_cons_cons, List.getLast?_singleton, Option.some_or, Option.some.injEq] at this
            exact this ▸ List.mem_of_getLast? hl
        rcases List.mem_cons.1 (s2.subset hb) with rfl | hb
        · simp at h2
        · have := t3 b hb
          omega

variable (tl : Timeline)

/-- C119, for a CA that was not started in the first second of a minute. The CA and a logger have periods of 60 seconds, `k` and
`i` count their rounds of the same minute. If the logger's tree head and its proof for a certificate arrive within `d`
milliseconds after it began to end its round, and the logger is not behind the CA by more than the second they are apart, then
the certificate carries both when the CA ends the round. Missing: a CA started in the first second. -/
theorem C119_proofs_in_time_partial (hX : X.Laws)
    -- the schedules
    (T0 T1 : Nat) (T U : Timers) (hT : T.mmd = 60) (hU : U.mmd = 60) (hTs : T.start = T0 + caWait (tl.wall T0) * 1000)
    (hUs : U.start = T1 + loggerWait (tl.wall T1) * 1000) (hsec : (tl.wall T0).second ≠ 0) (i k : Nat)
    (hik : U.start / 60000 + i = T.start / 60000 + k) (d : Nat)
    (hl : T1 % 1000 + U.total i + U.hold i + d < 1000 + T0 % 1000 + T.total k + T.hold k)
    (hc : 1000 + T0 % 1000 + T.total k < 40000)
    -- the round of the CA
    (h before mid after : List (Nat × CAEvent)) (key : Nat → Str) (t : Instant) (pos : List Nat)
    (r : CARound T k h key t pos before mid after) (sha : Str → Str) (rootPub : Str) (s0 s1 : CAState)
    (h0 : caRun X c root (initCA X sha c.signer rootPub).2 (before.map (·.2)) = some s0) (hempty : s0.pool.certs = [])
    (hkne : ∀ i, i < c.certPerPeriod → L.sha256 (key i) ≠ [])
    (hkinj : ∀ i j, i < c.certPerPeriod → j < c.certPerPeriod → L.sha256 (key i) = L.sha256 (key j) → i = j)
    (j : Nat) (hj : j < c.certPerPeriod) (hid : s0.certCounter + j < 2 ^ 63) (y : Cert)
    (hy : y = issuedCert X c root key s0.certCounter j)
    (h1 : caRun X c root (startRound X c root key s0) (mid.map (·.2)) = some s1)
    -- the logger's messages
    (lg : Str) (hlg : lg ≠ []) (g : GossipObj) (hg : g.signer = lg) (hv : g.verify c.crypto = .ok) (p : POI)
    (hpl : p.loggerID = lg) (hpk : p.subjectKeyId = y.subjectKeyId) (ts tp : Nat)
    (hm : [(ts, CAEvent.sth g), (tp, CAEvent.poi p)].Sublist h) (hts : U.round i ≤ ts) (htp : tp ≤ U.round i + d)
    (hev : ∀ e ∈ mid, RoundEvent lg y.subjectKeyId g p e.2) :
    ∃ x, s1.pool.getBySKI y.subjectKeyId = .ok (some x) ∧ x.rawSubject = y.rawSubject ∧ ⟨g, p⟩ ∈ (x.parseExt X).loggers := by
  have hTs' : T.start = (T.start / 60000) * 60000 + (1000 + T0 % 1000) := by
    rw [hTs, caWait_eq, if_neg hsec, tl.wall_second]
    rw [tl.wall_second] at hsec
    omega
  obtain ⟨m, hm1, _, _⟩ := logger_start tl T1
  rw [← hUs] at hm1
  have aT := tick_eq T k
  have aU := tick_eq U i
  rw [hT] at aT
  rw [hU] at aU
  have eT : T.round k = T.tick k + 40000 + T.hold k := by rw [Timers.round, hT]
  have eU : U.round i = U.tick i + 40000 + U.hold i := by rw [Timers.round, hU]
  have hmU : U.start / 60000 = m := by omega
  obtain ⟨a, b, z, e⟩ := r.within hm (by show T.tick k < ts; omega) (by show tp < T.round k; omega)
  have hrep0 : Rep s0.pool := rep_run c root _ rep_new h0
  have hski : y.subjectKeyId = L.sha256 (key j) := by rw [hy]; exact issuedCert_ski c root hX key _ j (hkne j hj)
  have hlook := start_lookup c root hX key s0 hrep0 hempty hkne hkinj j hj
  rw [← hski, ← hy] at hlook
  obtain ⟨_, hgrown⟩ := issuedCert_grownCert c root hX key s0.certCounter j hid lg g p
  rw [← hy] at hgrown
  have e' : mid.map (·.2) = a.map (·.2) ++ .sth g :: b.map (·.2) ++ .poi p :: z.map (·.2) := by
    rw [e]; simp
  rw [e'] at h1
  have hev' : ∀ v ∈ a.map (·.2) ++ .sth g :: b.map (·.2) ++ .poi p :: z.map (·.2), RoundEvent lg y.subjectKeyId g p v := by
    intro v hv
    rw [← e'] at hv
    obtain ⟨w, hw, rfl⟩ := List.mem_map.1 hv
    exact hev w hw
  obtain ⟨x, hx1, hx2, hx3⟩ := embedded c root hX hlg hg hv hpk hpl _ _ _ hev' h1
    (caStep_rep c root hrep0 (.start key) rfl) (heldSTHs_start c root key s0 lg g) hlook hgrown
  exact ⟨x, hx1, hx2.subject, hx3⟩

/-- A message that names the logger `lg`. -/
def Names (lg : Str) : CAEvent → Prop
  | .sth g => g.signer = lg
  | .poi p => p.loggerID = lg
  | _ => False

/-- Messages in the domain of the JSON contract, no start and no end of a round. -/
def PlainMessage : CAEvent → Prop
  | .start _ => False
  | .finish _ _ => False
  | .sth g => g.Plain
  | .poi p => p.Plain
  | _ => True

theorem close_then_poi {s s' : CAState} {t : Instant} {pos : List Nat} (h : caStep X c root s (.finish t pos) = some s') (p : POI) :
    caReceivePOI X p s' = s' := by
  obtain ⟨_, _, _, _, rfl⟩ := endRound_some X c h
  have : ∀ k, CertPool.new.getBySKI k = .ok none := fun _ => rfl
  unfold caReceivePOI
  simp only [this]

/-- C119 fails for a CA that is started in the first second of a minute: it ends each round before a logger that was started (in
any minute and second) at a later fraction of a second begins to end its own. All timers are exact and every message of the
logger arrives within 19 seconds; yet in no round does a certificate of the CA get an entry of this logger, and the proofs that
arrive after the round change nothing. -/
theorem C119_violated_first_second (hX : X.Laws) (T0 T1 : Nat) (T U : Timers) (hT : T.mmd = 60) (hU : U.mmd = 60)
    (hTs : T.start = T0 + caWait (tl.wall T0) * 1000) (hUs : U.start = T1 + loggerWait (tl.wall T1) * 1000)
    (hsec : (tl.wall T0).second = 0) (hfrac : T0 % 1000 < T1 % 1000)
    (hex : ∀ k, T.late k = 0 ∧ T.hold k = 0 ∧ U.late k = 0 ∧ U.hold k = 0) (k : Nat)
    (h before mid after : List (Nat × CAEvent)) (key : Nat → Str) (t : Instant) (pos : List Nat)
    (r : CARound T k h key t pos before mid after) (sha : Str → Str) (rootPub : Str) (s0 s1 s2 : CAState)
    (h0 : caRun X c root (initCA X sha c.signer rootPub).2 (before.map (·.2)) = some s0) (hempty : s0.pool.certs = [])
    (hkne : ∀ i, i < c.certPerPeriod → L.sha256 (key i) ≠ [])
    (hkinj : ∀ i j, i < c.certPerPeriod → j < c.certPerPeriod → L.sha256 (key i) = L.sha256 (key j) → i = j)
    (h1 : caRun X c root (startRound X c root key s0) (mid.map (·.2)) = some s1)
    (h2 : caStep X c root s1 (.finish t pos) = some s2)
    (lg : Str) (hlg : lg ≠ []) (hplain : ∀ e ∈ mid, PlainMessage e.2)
    (hmsg : ∀ e ∈ h, Names lg e.2 → ∃ i, U.round i ≤ e.1 ∧ e.1 < U.round i + 19000)
    (j : Nat) (hj : j < c.certPerPeriod) (hid : s0.certCounter + j < 2 ^ 63) :
    (∃ x, s1.pool.getBySKI (L.sha256 (key j)) = .ok (some x) ∧
      x.rawSubject = (issuedCert X c root key s0.certCounter j).rawSubject ∧
      ∀ n ∈ (x.parseExt X).loggers, n.sth.signer ≠ lg) ∧
    ∀ p, caReceivePOI X p s2 = s2 := by
  refine ⟨?_, close_then_poi X c root h2⟩
  obtain ⟨m, hm1, _, _⟩ := logger_start tl T1
  rw [← hUs] at hm1
  have tot : ∀ (V : Timers), (∀ k, V.late k = 0) → ∀ k, V.total k = 0 := by
    intro V hV k
    induction k with
    | zero => exact hV 0
    | succ k ih => rw [Timers.total, ih, hV]
  have aT := tick_eq T k
  rw [hT, tot T (fun k => (hex k).1)] at aT
  have eT : T.round k = T.tick k + 40000 := by rw [Timers.round, hT, (hex k).2.1]
  have hTs' : T.start = T0 := by
    rw [hTs, caWait_eq, if_pos hsec, Nat.zero_mul, Nat.add_zero]
  rw [tl.wall_second] at hsec
  have none : ∀ e ∈ mid, ¬ Names lg e.2 := by
    intro e he hn
    obtain ⟨i, hi1, hi2⟩ := hmsg e (by rw [r.split]; simp [he]) hn
    obtain ⟨q1, q2⟩ := r.mid_times.2.1 e he
    have aU := tick_eq U i
    rw [hU, tot U (fun k => (hex k).2.2.1)] at aU
    have eU : U.round i = U.tick i + 40000 := by rw [Timers.round, hU, (hex i).2.2.2]
    clear r hmsg hplain h1 h2 h0
    have b1 : U.round i = (m + i) * 60000 + T1 % 1000 + 40000 := by omega
    have b2 : T.tick k = (T0 / 60000 + k) * 60000 + T0 % 1000 := by omega
    rw [eT, b2] at q2
    rw [b2] at q1
    rw [b1] at hi1 hi2
    generalize m + i = u at *
    generalize T0 / 60000 + k = v at *
    clear aU eU b1 b2 aT eT hm1 hsec hTs' tot
    omega
  have hski : (issuedCert X c root key s0.certCounter j).subjectKeyId = L.sha256 (key j) :=
    issuedCert_ski c root hX key _ j (hkne j hj)
  have hrep0 : Rep s0.pool := rep_run c root _ rep_new h0
  have hlook := start_lookup c root hX key s0 hrep0 hempty hkne hkinj j hj
  have run : ∀ (g : GossipObj) (p : POI), ∃ x, s1.pool.getBySKI (L.sha256 (key j)) = .ok (some x) ∧
      GrownCert c X (issuedCert X c root key s0.certCounter j) x lg g p := by
    intro g p
    obtain ⟨_, hgrown⟩ := issuedCert_grownCert c root hX key s0.certCounter j hid lg g p
    have hev : ∀ v ∈ mid.map (·.2), RoundEvent lg (L.sha256 (key j)) g p v := by
      intro v hv
      obtain ⟨w, hw, rfl⟩ := List.mem_map.1 hv
      have hp := hplain w hw
      have hn := none w hw
      cases hw2 : w.2 <;> rw [hw2] at hp hn <;> simp only [PlainMessage, Names, RoundEvent] at hp hn ⊢
      · exact ⟨hp, fun e => absurd e hn⟩
      · exact ⟨hp, fun e => absurd e hn⟩
    obtain ⟨_, _, _, x, hx1, hx2, _⟩ := round_run c root hX hlg _ hev h1
      (caStep_rep c root hrep0 (.start key) rfl) (heldSTHs_start c root key s0 lg g) hlook hgrown
    exact ⟨x, hx1, hx2⟩
  obtain ⟨x, hx1, hx2⟩ := run GossipObj.zero ⟨Option.none, [], [], []⟩
  obtain ⟨x', hx1', hx2'⟩ := run GossipObj.zero ⟨Option.none, [0], [], []⟩
  rw [hx1] at hx1'
  cases hx1'
  refine ⟨x, hx1, hx2.subject, fun n hn hs => ?_⟩
  have e1 := (hx2.entries n hn).2 hs
  have e2 := (hx2'.entries n hn).2 hs
  rw [e1] at e2
  cases e2

/-! ### Concrete cases -/

namespace Ref

/-- C1 called at 00:33:12.3 and L1 called at 00:33:15.5. -/
def c1Timers : Timers := ⟨1992300 + caWait (timeline.wall 1992300) * 1000, 60, fun _ => 0, fun _ => 0⟩
def l1Timers : Timers := ⟨1995500 + loggerWait (timeline.wall 1995500) * 1000, 60, fun _ => 0, fun _ => 0⟩
/-- C1 called at 00:34:00.2. -/
def c0Timers : Timers := ⟨2040200 + caWait (timeline.wall 2040200) * 1000, 60, fun _ => 0, fun _ => 0⟩

/-- The history of C1: the messages of L1 arrive 100 ms and 300 ms after L1 began to end its round. -/
def in34 (x : GossipObj × List POI) : List (Nat × CAEvent) :=
  (l1Timers.round 0 + 100, .sth x.1) :: x.2.map fun p => (l1Timers.round 0 + 300, .poi p)

def hist34 (x : GossipObj × List POI) : List (Nat × CAEvent) :=
  (c1Timers.tick 0, .start (leafKey 0)) :: (in34 x ++ [(c1Timers.round 0, .finish (timeline.wall (c1Timers.round 0)) [])])

def hist0 (x : GossipObj × List POI) : List (Nat × CAEvent) :=
  (c0Timers.tick 0, .start (leafKey 0)) :: ([] ++ (c0Timers.round 0, .finish (timeline.wall (c0Timers.round 0)) []) :: in34 x)

/-- The times: both work in minute 34; C1 ends its round at 34:41.3, or at 34:40.2 when it was started in the first second. -/
example : l1Timers.round 0 = 34 * 60000 + 40500 ∧ c1Timers.round 0 = 34 * 60000 + 41300 ∧ c0Timers.round 0 = 34 * 60000 + 40200 ∧
    (timeline.wall 1992300).second ≠ 0 ∧ (timeline.wall 2040200).second = 0 ∧ 2040200 % 1000 < 1995500 % 1000 ∧
    l1Timers.start / 60000 + 0 = c1Timers.start / 60000 + 0 ∧
    1995500 % 1000 + l1Timers.total 0 + l1Timers.hold 0 + 300 < 1000 + 1992300 % 1000 + c1Timers.total 0 + c1Timers.hold 0 := by
  decide +kernel

set_option synthInstance.maxSize 1000 in
/-- C119: the two histories are in the order of their times; the certificates get the entry of L1 in the first and not in the
second. -/
example : ((logRound (timeline.wall (l1Timers.round 0))).bind fun x =>
    (caRun xlib caConf caRoot caInit (.start (leafKey 0) :: (in34 x).map (·.2))).bind fun s =>
    (caRun xlib caConf caRoot caInit [.start (leafKey 0)]).map fun z =>
      (decide (x.1.signer = go!"L1" ∧ x.1.verify caConf.crypto = .ok), x.2.map fun p => p.loggerID,
       decide (((hist34 x).map (·.1)).Pairwise (· ≤ ·)), decide (((hist0 x).map (·.1)).Pairwise (· ≤ ·)),
       s.pool.getCerts.map fun w => (w.parseExt xlib).loggers.map fun n => n.sth.signer,
       z.pool.getCerts.map fun w => (w.parseExt xlib).loggers.map fun n => n.sth.signer)) =
    some (true, [go!"L1", go!"L1"], true, true, [[go!"L1"], [go!"L1"]], [[], []]) := by decide +kernel

end Ref
end CTng
