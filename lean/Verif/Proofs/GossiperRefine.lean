import Verif.Proofs.GossiperSim
/- Every sequential history is one of the interleavings of the concurrent gossiper. -/
set_option autoImplicit false

namespace CTng
variable {L : Lib} (cf : GConf L)

theorem crun_append (c : CState) (a b : List (Clock × CEvent)) : crun cf c (a ++ b) = crun cf (crun cf c a) b := by
  simp [crun]

theorem grun_append (s : GState) (a b : List (Clock × GOp)) : grun cf s (a ++ b) = grun cf (grun cf s a) b := by
  simp [grun]

theorem CReach.init : CReach cf CState.init := ⟨[], rfl⟩

theorem CReach.run {c : CState} (h : CReach cf c) (es : List (Clock × CEvent)) : CReach cf (crun cf c es) := by
  obtain ⟨h0, rfl⟩ := h
  exact ⟨h0 ++ es, (crun_append cf _ _ _).symm⟩

theorem GReach.init : GReach cf GState.init := ⟨[], rfl⟩

theorem GReach.run {s : GState} (h : GReach cf s) (es : List (Clock × GOp)) : GReach cf (grun cf s es) := by
  obtain ⟨h0, rfl⟩ := h
  exact ⟨h0 ++ es, (grun_append cf _ _ _).symm⟩

theorem GReach.step {s : GState} (h : GReach cf s) (e : Clock × GOp) : GReach cf (gstep cf s e) := h.run cf [e]

/-- Induction over schedules. -/
theorem crun_induct {P : CState → Prop} (hstep : ∀ c e, P c → P (cstep cf c e)) {c : CState} (h0 : P c)
    (es : List (Clock × CEvent)) : P (crun cf c es) := by
  induction es generalizing c with
  | nil => exact h0
  | cons e t ih => exact ih (hstep c e h0)

theorem CReach.induct {P : CState → Prop} (h0 : P CState.init) (hstep : ∀ c e, P c → P (cstep cf c e)) {c : CState}
    (h : CReach cf c) : P c := by
  obtain ⟨es, rfl⟩ := h
  exact crun_induct cf hstep h0 es

theorem GReach.induct {P : GState → Prop} (h0 : P GState.init) (hstep : ∀ s e, P s → P (gstep cf s e)) {s : GState}
    (h : GReach cf s) : P s := by
  obtain ⟨es, rfl⟩ := h
  have : ∀ (s : GState), P s → P (grun cf s es) := by
    induction es with
    | nil => intro s hs; exact hs
    | cons e t ih => intro s hs; exact ih _ (hstep s e hs)
  exact this _ h0

@[simp] theorem crashed_addBlacklist (s : GState) (x : Str) : (addBlacklist s x).crashed = s.crashed := by
  unfold addBlacklist; split <;> rfl

@[simp] theorem crashed_storeBlacklist (s : GState) (g : GossipObj) : (storeBlacklist s g).crashed = s.crashed := by
  unfold storeBlacklist; split <;> simp

@[simp] theorem crashed_storeNote (clk : Clock) (s : GState) (g : GossipObj) :
    (storeNote cf clk s g).crashed = s.crashed := by
  unfold storeNote noteInitConverge; split <;> (try split) <;> rfl

@[simp] theorem crashed_storeLocked (s : GState) (g : GossipObj) : (storeLocked s g).1.crashed = s.crashed := by
  unfold storeLocked; split <;> (try split) <;> rfl

@[simp] theorem crashed_readAndStore (s : GState) (g : GossipObj) : (readAndStore cf s g).1.crashed = s.crashed := by
  unfold readAndStore; split <;> (try dsimp only) <;> (try split) <;> rfl

@[simp] theorem crashed_sendToGossipers (s : GState) (g : GossipObj) :
    (sendToGossipers cf s g).crashed = s.crashed := by
  unfold sendToGossipers; simp only; split <;> rfl

@[simp] theorem crashed_savePayload (s : GState) (g : GossipObj) : (savePayload cf s g).1.crashed = s.crashed := by
  unfold savePayload; split <;> rfl

/-- Atomic actions do not end the process by themselves. -/
theorem crashed_stepFrame (clk : Clock) (s : GState) (f : Frame) : (stepFrame cf clk s f).1.crashed = s.crashed := by
  cases f with
  | recv n g =>
    unfold stepFrame
    simp only
    have : (if n > cf.optThreshold ∧ g.type = .REV_INIT
        then savePayload cf { s with trafficReceived := s.trafficReceived + n } g
        else ({ s with trafficReceived := s.trafficReceived + n }, true)).1.crashed = s.crashed := by
      split <;> simp
    split <;> (rename_i h; rw [h] at this; exact this)
  | store g =>
    unfold stepFrame
    simp only
    split
    · rfl
    · rfl
    · have := crashed_storeLocked { s with timerlist := s.timerlist ++ [clk.second] } g
      split <;> (rename_i h; rw [h] at this; exact this)
  | storeBl g => simp [stepFrame]
  | storeNote g => simp [stepFrame]
  | sendPeers g => simp [stepFrame]
  | sign g =>
    unfold stepFrame signStatement
    simp only
    cases generateFRAG cf g <;> rfl
  | fragStore g => simp [stepFrame]
  | fragGen g =>
    unfold stepFrame
    simp only
    split <;> rfl
  | fullNote => simp only [stepFrame, noteConverge]; split <;> rfl
  | notify n x => simp only [stepFrame, notificationHandler]; split <;> rfl
  | request n x => simp only [stepFrame, requestHandler]; split <;> rfl
  | save => simp only [stepFrame, save]; split <;> rfl
  | wipe => rfl
  | _ => simp [stepFrame, sendToMonitor, GState.emit]

/-- State after a goroutine finished or panicked. -/
def settle (s : GState) (panicked fatal : Bool) : GState :=
  if panicked && fatal then { s with crashed := true } else s

/-- A schedule that only runs goroutine `i` realises its solo steps. -/
theorem crun_solo (clk : Clock) {a b : Solo} (h : Steps cf clk a b) :
    ∀ (c : CState) (i : Nat) (fatal : Bool), a.panicked = false → c.g = a.s → c.g.crashed = false →
      c.threads[i]? = some ⟨a.fs, fatal⟩ →
      ∃ es, (∀ e ∈ es, e = (clk, .run i)) ∧
        crun cf c es = ⟨settle b.s b.panicked fatal, c.threads.set i ⟨b.fs, fatal⟩⟩ := by
  induction h with
  | refl a =>
    intro c i fatal hp hc hcr hi
    refine ⟨[], by simp, ?_⟩
    have : c.threads.set i ⟨a.fs, fatal⟩ = c.threads := by
      apply List.ext_getElem?
      intro j
      rw [List.getElem?_set]
      split
      · rename_i e; subst e
        rw [hi]; simp [(List.getElem?_eq_some_iff.1 hi).1]
      · rfl
    rw [this]
    simp [crun, settle, hp, ← hc]
  | @step s s' f fs new b hf _ ih =>
    intro c i fatal hp hc hcr hi
    have hlt : i < c.threads.length := (List.getElem?_eq_some_iff.1 hi).1
    have e1 : cstep cf c (clk, .run i) = ⟨s', c.threads.set i ⟨new ++ fs, fatal⟩⟩ := by
      simp only [cstep, hcr, hi, stepThread]
      rw [hc]
      simp only at hf ⊢
      rw [hf]
      rfl
    have hcr' : s'.crashed = false := by
      have := crashed_stepFrame cf clk s f
      rw [hf] at this
      simp only at this hc
      rw [this, ← hc]; exact hcr
    obtain ⟨es, hes, hrun⟩ := ih ⟨s', c.threads.set i ⟨new ++ fs, fatal⟩⟩ i fatal rfl rfl hcr'
      (by simp [hlt])
    refine ⟨(clk, .run i) :: es, ?_, ?_⟩
    · intro e he
      rcases List.mem_cons.1 he with h | h
      · exact h
      · exact hes e h
    · show crun cf (cstep cf c (clk, .run i)) es = _
      rw [e1, hrun]
      simp
  | @panic s s' f fs hf =>
    intro c i fatal hp hc hcr hi
    refine ⟨[(clk, .run i)], by simp, ?_⟩
    show cstep cf c (clk, .run i) = _
    simp only [cstep, hcr, hi, stepThread]
    rw [hc]
    simp only at hf ⊢
    rw [hf]
    cases fatal <;> rfl

/-- All goroutines have finished. -/
def CState.idle (c : CState) : Prop := ∀ t ∈ c.threads, t.frames = []

/-- Start a goroutine with stack `fs` in an idle system and let it run alone to the end `b`. -/
theorem crun_spawn (clk : Clock) (c : CState) (fs : List Frame) (fatal : Bool) (b : Solo) (hb : b.fs = [])
    (hcr : c.g.crashed = false) (hidle : c.idle)
    (h : Steps cf clk ⟨c.g, fs, false⟩ b) :
    ∃ es, crun cf ⟨c.g, c.threads ++ [⟨fs, fatal⟩]⟩ es =
        ⟨settle b.s b.panicked fatal, c.threads ++ [⟨[], fatal⟩]⟩ ∧
      CState.idle ⟨settle b.s b.panicked fatal, c.threads ++ [⟨[], fatal⟩]⟩ ∧ ∀ x ∈ es, ∃ i, x.2 = .run i := by
  obtain ⟨es, hes, hrun⟩ := crun_solo cf clk h ⟨c.g, c.threads ++ [⟨fs, fatal⟩]⟩ c.threads.length fatal rfl rfl hcr
    (by simp)
  refine ⟨es, ?_, ?_, fun x hx => by rw [hes x hx]; exact ⟨_, rfl⟩⟩
  · rw [hrun, hb]
    simp
  · intro t ht
    rcases List.mem_append.1 ht with ht | ht
    · exact hidle t ht
    · simp at ht; rw [ht]

/-- One sequentially executed event is a schedule of the concurrent gossiper. -/
theorem cstep_seq (c : CState) (hidle : c.idle) (e : Clock × GOp) :
    ∃ es, (crun cf c es).g = gstep cf c.g e ∧ (crun cf c es).idle ∧
      (e.2 ≠ .periodic → ∀ x ∈ es, x.2 ≠ .periodic) := by
  obtain ⟨clk, op⟩ := e
  by_cases hcr : c.g.crashed = true
  · exact ⟨[], by simp [crun, gstep, hcr], hidle, by simp⟩
  · have hcr : c.g.crashed = false := by simpa using hcr
    cases op with
    | recv n o =>
      rcases hr : gossipObjectHandler cf clk n c.g o with ⟨s1, b⟩
      have hs := sim_recv cf clk n o c.g []
      rw [hr] at hs
      obtain ⟨es, h1, h2, h3⟩ := crun_spawn cf clk c [.recv n o] false _ (by cases b <;> rfl) hcr hidle hs
      refine ⟨(clk, .recv n o) :: es, ?_⟩
      have e1 : crun cf c ((clk, .recv n o) :: es) = crun cf ⟨c.g, c.threads ++ [⟨[.recv n o], false⟩]⟩ es := by
        show crun cf (cstep cf c (clk, .recv n o)) es = _
        simp [cstep, hcr]
      rw [e1, h1]
      refine ⟨?_, h2, fun hp x hx => by
        rcases List.mem_cons.1 hx with rfl | hx
        · simp
        · obtain ⟨i, e⟩ := h3 x hx; rw [e]; simp⟩
      simp only [gstep, hcr, hr]
      cases b <;> simp [settle, finish]
    | notify n x =>
      have hs : Steps cf clk ⟨c.g, [.notify n x], false⟩ ⟨notificationHandler cf n c.g x, [], false⟩ :=
        .step (new := []) rfl (.refl _)
      obtain ⟨es, h1, h2, h3⟩ := crun_spawn cf clk c _ false _ rfl hcr hidle hs
      refine ⟨(clk, .notify n x) :: es, ?_⟩
      have e1 : crun cf c ((clk, .notify n x) :: es) = crun cf ⟨c.g, c.threads ++ [⟨[.notify n x], false⟩]⟩ es := by
        show crun cf (cstep cf c (clk, .notify n x)) es = _
        simp [cstep, hcr]
      rw [e1, h1]
      exact ⟨by simp [gstep, hcr, settle], h2, fun hp x hx => by
        rcases List.mem_cons.1 hx with rfl | hx
        · first | exact absurd rfl hp | simp
        · obtain ⟨i, e⟩ := h3 x hx; rw [e]; simp⟩
    | request n x =>
      have hs : Steps cf clk ⟨c.g, [.request n x], false⟩ ⟨requestHandler cf n c.g x, [], false⟩ :=
        .step (new := []) rfl (.refl _)
      obtain ⟨es, h1, h2, h3⟩ := crun_spawn cf clk c _ false _ rfl hcr hidle hs
      refine ⟨(clk, .request n x) :: es, ?_⟩
      have e1 : crun cf c ((clk, .request n x) :: es) = crun cf ⟨c.g, c.threads ++ [⟨[.request n x], false⟩]⟩ es := by
        show crun cf (cstep cf c (clk, .request n x)) es = _
        simp [cstep, hcr]
      rw [e1, h1]
      exact ⟨by simp [gstep, hcr, settle], h2, fun hp x hx => by
        rcases List.mem_cons.1 hx with rfl | hx
        · first | exact absurd rfl hp | simp
        · obtain ⟨i, e⟩ := h3 x hx; rw [e]; simp⟩
    | fire i =>
      cases ht : c.g.timers[i]? with
      | none => exact ⟨[], by simp [crun, gstep, hcr, ht], hidle, by simp⟩
      | some o =>
        rcases hr : timerFire cf clk { c.g with timers := c.g.timers.eraseIdx i } o with ⟨s1, b⟩
        have hs := sim_fire cf clk o { c.g with timers := c.g.timers.eraseIdx i } []
        rw [hr] at hs
        obtain ⟨es, h1, h2, h3⟩ := crun_spawn cf clk ⟨{ c.g with timers := c.g.timers.eraseIdx i }, c.threads⟩
          [.signBlk o] true _ (by cases b <;> rfl) hcr hidle hs
        refine ⟨(clk, .fire i) :: es, ?_⟩
        have e1 : crun cf c ((clk, .fire i) :: es) =
            crun cf ⟨{ c.g with timers := c.g.timers.eraseIdx i }, c.threads ++ [⟨[.signBlk o], true⟩]⟩ es := by
          show crun cf (cstep cf c (clk, .fire i)) es = _
          simp [cstep, hcr, ht]
        rw [e1, h1]
        refine ⟨?_, h2, fun hp x hx => by
        rcases List.mem_cons.1 hx with rfl | hx
        · simp
        · obtain ⟨i, e⟩ := h3 x hx; rw [e]; simp⟩
        have hg : gstep cf c.g (clk, .fire i) =
            (match timerFire cf clk { c.g with timers := c.g.timers.eraseIdx i } o with
             | (s, false) => s
             | (s, true) => { s with crashed := true }) := by
          simp only [gstep, hcr, ht]; rfl
        rw [hg, hr]
        cases b <;> simp [settle, finish]
    | periodic =>
      have hs : Steps cf clk ⟨c.g, [.save, .wipe], false⟩ ⟨periodicTask clk c.g, [], false⟩ :=
        .step (new := []) rfl (.step (new := []) rfl (.refl _))
      obtain ⟨es, h1, h2, h3⟩ := crun_spawn cf clk c _ true _ rfl hcr hidle hs
      refine ⟨(clk, .periodic) :: es, ?_⟩
      have e1 : crun cf c ((clk, .periodic) :: es) = crun cf ⟨c.g, c.threads ++ [⟨[.save, .wipe], true⟩]⟩ es := by
        show crun cf (cstep cf c (clk, .periodic)) es = _
        simp [cstep, hcr]
      rw [e1, h1]
      exact ⟨by simp [gstep, hcr, settle], h2, fun hp x hx => by
        rcases List.mem_cons.1 hx with rfl | hx
        · first | exact absurd rfl hp | simp
        · obtain ⟨i, e⟩ := h3 x hx; rw [e]; simp⟩

/-- Every state reached sequentially is reached by some schedule of the concurrent gossiper. -/
theorem GReach.toConc {s : GState} (h : GReach cf s) : ∃ c, CReach cf c ∧ c.g = s ∧ c.idle := by
  refine h.induct cf (P := fun s => ∃ c, CReach cf c ∧ c.g = s ∧ c.idle) ?_ ?_
  · exact ⟨CState.init, CReach.init cf, rfl, by intro t ht; simp [CState.init] at ht⟩
  · rintro s e ⟨c, hc, rfl, hi⟩
    obtain ⟨es, h1, h2, _⟩ := cstep_seq cf c hi e
    exact ⟨_, hc.run cf es, h1, h2⟩

/-- A sequential history is a schedule; without wipes it is a schedule without wipes. -/
theorem grun_conc (h : List (Clock × GOp)) (c : CState) (hi : c.idle) :
    ∃ es, (crun cf c es).g = grun cf c.g h ∧ (crun cf c es).idle ∧
      ((∀ e ∈ h, e.2 ≠ .periodic) → ∀ x ∈ es, x.2 ≠ .periodic) := by
  induction h generalizing c with
  | nil => exact ⟨[], rfl, hi, by simp⟩
  | cons e t ih =>
    obtain ⟨es, h1, h2, h3⟩ := cstep_seq cf c hi e
    obtain ⟨es', h1', h2', h3'⟩ := ih (crun cf c es) h2
    refine ⟨es ++ es', ?_, ?_, ?_⟩
    · rw [crun_append, h1', h1]; rfl
    · rw [crun_append]; exact h2'
    · intro hp x hx
      rcases List.mem_append.1 hx with hx | hx
      · exact h3 (hp e (by simp)) x hx
      · exact h3' (fun e he => hp e (by simp [he])) x hx

end CTng
