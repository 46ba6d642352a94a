import Verif.Model.NetworkSerial
import Verif.Props.Network
/- Serial networks as runs of the concurrent network. -/
set_option autoImplicit false

namespace CTng
variable {L : Lib}

/-- The concurrent event a sequential event starts with. -/
def GOp.toEvent : GOp → CEvent
  | .recv n o => .recv n o
  | .notify n x => .notify n x
  | .request n x => .request n x
  | .fire i => .fire i
  | .periodic => .periodic

theorem routeEvent_eq (cf : GConf L) (m : Msg) : routeEvent cf m = (routeOp cf m).map GOp.toEvent := by
  obtain ⟨d, r, b⟩ := m
  unfold routeEvent routeOp
  cases b with
  | obj o => simp only; split <;> rfl
  | notif n =>
    simp only
    split
    · rfl
    · split <;> rfl

/-- One sequentially executed event is a schedule that starts with the event and goes on with scheduler steps. -/
theorem cstep_seq' (cf : GConf L) (c : CState) (hidle : c.idle) (e : Clock × GOp) :
    ∃ es, (crun cf c ((e.1, e.2.toEvent) :: es)).g = gstep cf c.g e ∧ (crun cf c ((e.1, e.2.toEvent) :: es)).idle ∧
      ∀ x ∈ es, ∃ i, x.2 = .run i := by
  obtain ⟨clk, op⟩ := e
  by_cases hcr : c.g.crashed = true
  · have : crun cf c [(clk, op.toEvent)] = c := by simp [crun, cstep, hcr]
    exact ⟨[], by rw [this]; simp [gstep, hcr], by rw [this]; exact hidle, by simp⟩
  · have hcr : c.g.crashed = false := by simpa using hcr
    cases op with
    | recv n o =>
      rcases hr : gossipObjectHandler cf clk n c.g o with ⟨s1, b⟩
      have hs := sim_recv cf clk n o c.g []
      rw [hr] at hs
      obtain ⟨es, h1, h2, h3⟩ := crun_spawn cf clk c [.recv n o] false _ (by cases b <;> rfl) hcr hidle hs
      refine ⟨es, ?_⟩
      have e1 : crun cf c ((clk, .recv n o) :: es) = crun cf ⟨c.g, c.threads ++ [⟨[.recv n o], false⟩]⟩ es := by
        show crun cf (cstep cf c (clk, .recv n o)) es = _
        simp [cstep, hcr]
      simp only [GOp.toEvent]
      rw [e1, h1]
      refine ⟨?_, h2, h3⟩
      simp only [gstep, hcr, hr]
      cases b <;> simp [settle, finish]
    | notify n x =>
      have hs : Steps cf clk ⟨c.g, [.notify n x], false⟩ ⟨notificationHandler cf n c.g x, [], false⟩ :=
        .step (new := []) rfl (.refl _)
      obtain ⟨es, h1, h2, h3⟩ := crun_spawn cf clk c _ false _ rfl hcr hidle hs
      refine ⟨es, ?_⟩
      have e1 : crun cf c ((clk, .notify n x) :: es) = crun cf ⟨c.g, c.threads ++ [⟨[.notify n x], false⟩]⟩ es := by
        show crun cf (cstep cf c (clk, .notify n x)) es = _
        simp [cstep, hcr]
      simp only [GOp.toEvent]
      rw [e1, h1]
      exact ⟨by simp [gstep, hcr, settle], h2, h3⟩
    | request n x =>
      have hs : Steps cf clk ⟨c.g, [.request n x], false⟩ ⟨requestHandler cf n c.g x, [], false⟩ :=
        .step (new := []) rfl (.refl _)
      obtain ⟨es, h1, h2, h3⟩ := crun_spawn cf clk c _ false _ rfl hcr hidle hs
      refine ⟨es, ?_⟩
      have e1 : crun cf c ((clk, .request n x) :: es) = crun cf ⟨c.g, c.threads ++ [⟨[.request n x], false⟩]⟩ es := by
        show crun cf (cstep cf c (clk, .request n x)) es = _
        simp [cstep, hcr]
      simp only [GOp.toEvent]
      rw [e1, h1]
      exact ⟨by simp [gstep, hcr, settle], h2, h3⟩
    | fire i =>
      simp only [GOp.toEvent]
      cases ht : c.g.timers[i]? with
      | none =>
        have : crun cf c [(clk, .fire i)] = c := by simp [crun, cstep, hcr, ht]
        exact ⟨[], by rw [this]; simp [gstep, hcr, ht], by rw [this]; exact hidle, by simp⟩
      | some o =>
        rcases hr : timerFire cf clk { c.g with timers := c.g.timers.eraseIdx i } o with ⟨s1, b⟩
        have hs := sim_fire cf clk o { c.g with timers := c.g.timers.eraseIdx i } []
        rw [hr] at hs
        obtain ⟨es, h1, h2, h3⟩ := crun_spawn cf clk ⟨{ c.g with timers := c.g.timers.eraseIdx i }, c.threads⟩
          [.signBlk o] true _ (by cases b <;> rfl) hcr hidle hs
        refine ⟨es, ?_⟩
        have e1 : crun cf c ((clk, .fire i) :: es) =
            crun cf ⟨{ c.g with timers := c.g.timers.eraseIdx i }, c.threads ++ [⟨[.signBlk o], true⟩]⟩ es := by
          show crun cf (cstep cf c (clk, .fire i)) es = _
          simp [cstep, hcr, ht]
        rw [e1, h1]
        refine ⟨?_, h2, h3⟩
        have hg : gstep cf c.g (clk, .fire i) =
            (match timerFire cf clk { c.g with timers := c.g.timers.eraseIdx i } o with
             | (s, false) => s
             | (s, true) => { s with crashed := true }) := by
          simp only [gstep, hcr, ht]; rfl
        rw [hg, hr]
        cases b <;> simp [settle, finish]
    | periodic =>
      have hs : Steps cf clk ⟨c.g, [.save, .wipe], false⟩ ⟨periodicTask clk c.g, [], false⟩ :=
        .step (new := []) rfl (.step (new := []) rfl (.refl _))
      obtain ⟨es, h1, h2, h3⟩ := crun_spawn cf clk c _ true _ rfl hcr hidle hs
      refine ⟨es, ?_⟩
      have e1 : crun cf c ((clk, .periodic) :: es) = crun cf ⟨c.g, c.threads ++ [⟨[.save, .wipe], true⟩]⟩ es := by
        show crun cf (cstep cf c (clk, .periodic)) es = _
        simp [cstep, hcr]
      simp only [GOp.toEvent]
      rw [e1, h1]
      exact ⟨by simp [gstep, hcr, settle], h2, h3⟩

/-- Running one gossiper of the network. -/
theorem nrun_node (N : NetConf L) (x : Str) (hx : x ∈ N.ids) (es : List (Clock × CEvent)) (s : Net) :
    (∀ y, (nrun N s (es.map (.node x))).node y = if y = x then crun (N.conf x) (s.node x) es else s.node y) ∧
    (nrun N s (es.map (.node x))).flight =
      s.flight ++ postsOf ((crun (N.conf x) (s.node x) es).g.out.drop (s.node x).g.out.length) := by
  induction es generalizing s with
  | nil =>
    refine ⟨fun y => ?_, ?_⟩
    · simp only [List.map_nil, nrun, List.foldl_nil, crun]
      split
      · rename_i h; rw [h]
      · rfl
    · simp [nrun, crun, postsOf]
  | cons e es ih =>
    have e1 : nrun N s ((e :: es).map (.node x)) = nrun N (nodeStep N s x e) (es.map (.node x)) := rfl
    obtain ⟨h1, h2⟩ := ih (nodeStep N s x e)
    have hn := nodeStep_node N s x e hx
    have hnx : (nodeStep N s x e).node x = cstep (N.conf x) (s.node x) e := by rw [hn]; simp
    have hc : crun (N.conf x) (s.node x) (e :: es) = crun (N.conf x) (cstep (N.conf x) (s.node x) e) es := rfl
    rw [e1]
    refine ⟨fun y => ?_, ?_⟩
    · rw [h1 y, hnx, hc]
      split
      · rfl
      · rename_i h; rw [hn, if_neg h]
    · rw [h2, hnx, hc]
      obtain ⟨o1, ho1⟩ := cstep_out (N.conf x) (s.node x) e
      have ho2 : ∃ o, (crun (N.conf x) (cstep (N.conf x) (s.node x) e) es).g.out = (cstep (N.conf x) (s.node x) e).g.out ++ o := by
        generalize cstep (N.conf x) (s.node x) e = c
        clear h1 h2 ih hn hnx hc e1 ho1
        induction es generalizing c with
        | nil => exact ⟨[], by simp [crun]⟩
        | cons e es ih =>
          obtain ⟨a, ha⟩ := ih (cstep (N.conf x) c e)
          obtain ⟨b, hb⟩ := cstep_out (N.conf x) c e
          exact ⟨b ++ a, by rw [show crun (N.conf x) c (e :: es) = crun (N.conf x) (cstep (N.conf x) c e) es from rfl, ha, hb]; simp⟩
      obtain ⟨o2, ho2⟩ := ho2
      simp only [nodeStep, if_pos hx]
      rw [ho2, ho1]
      have d1 : List.drop (s.node x).g.out.length ((s.node x).g.out ++ o1) = o1 := by simp
      have d2 : List.drop ((s.node x).g.out ++ o1).length ((s.node x).g.out ++ o1 ++ o2) = o2 := by simp
      have d3 : List.drop (s.node x).g.out.length ((s.node x).g.out ++ o1 ++ o2) = o1 ++ o2 := by simp
      rw [d1, d2, d3]
      simp [postsOf]

/-- The concurrent network state that a serial network state stands for. -/
structure Same (s : SNet) (c : Net) : Prop where
  node : ∀ x, (c.node x).g = s.node x
  idle : ∀ x, (c.node x).idle
  flight : c.flight = s.flight

/-- The event is not the periodic wipe. -/
def SEvent.noWipe : SEvent → Bool
  | .node _ (_, .periodic) => false
  | _ => true

theorem nrun_cons (N : NetConf L) (s : Net) (e : NEvent) (es : List NEvent) : nrun N s (e :: es) = nrun N (nstep N s e) es := rfl
theorem nrun_append (N : NetConf L) (s : Net) (a b : List NEvent) : nrun N s (a ++ b) = nrun N (nrun N s a) b := by
  simp [nrun, List.foldl_append]

theorem nodeStep_same {N : NetConf L} {s : SNet} {c : Net} (h : Same s c) (x : Str) (hx : x ∈ N.ids) (e : Clock × GOp) :
    ∃ es : List NEvent, Same (snodeStep N s x e) (nrun N (nodeStep N c x (e.1, e.2.toEvent)) es) ∧ ∀ a ∈ es, ∃ clk i, a = .node x (clk, .run i) := by
  obtain ⟨es, h1, h2, h3⟩ := cstep_seq' (N.conf x) (c.node x) (h.idle x) e
  refine ⟨es.map (.node x), ?_, ?_⟩
  · have e1 : nrun N (nodeStep N c x (e.1, e.2.toEvent)) (es.map (.node x)) =
        nrun N c (((e.1, e.2.toEvent) :: es).map (.node x)) := rfl
    rw [e1]
    obtain ⟨g1, g2⟩ := nrun_node N x hx ((e.1, e.2.toEvent) :: es) c
    refine ⟨fun y => ?_, fun y => ?_, ?_⟩
    · rw [g1]
      simp only [snodeStep, if_pos hx]
      split
      · rw [h1, h.node]
      · exact h.node y
    · rw [g1]
      split
      · exact h2
      · exact h.idle y
    · rw [g2, h1, h.node, h.flight]
      simp only [snodeStep, if_pos hx]
  · intro a ha
    obtain ⟨b, hb, rfl⟩ := List.mem_map.1 ha
    obtain ⟨i, e⟩ := h3 b hb
    obtain ⟨clk, ev⟩ := b
    exact ⟨clk, i, by rw [← e]⟩

theorem toEvent_noWipe {x : Str} {e : Clock × GOp} : NEvent.noWipe (.node x (e.1, e.2.toEvent)) = SEvent.noWipe (.node x e) := by
  obtain ⟨clk, op⟩ := e
  cases op <;> rfl

theorem sstep_same {N : NetConf L} {s : SNet} {c : Net} (h : Same s c) (e : SEvent) :
    ∃ es : List NEvent, Same (sstep N s e) (nrun N c es) ∧ (e.noWipe = true → ∀ a ∈ es, a.noWipe = true) ∧
      ∀ z clk n o, .node z (clk, .recv n o) ∈ es → e = .node z (clk, .recv n o) := by
  cases e with
  | node x e =>
    by_cases hx : x ∈ N.ids
    · obtain ⟨es, h1, h2⟩ := nodeStep_same h x hx e
      refine ⟨.node x (e.1, e.2.toEvent) :: es, h1, fun hw a ha => ?_, fun z clk n o hm => ?_⟩
      · rcases List.mem_cons.1 ha with rfl | ha
        · rw [toEvent_noWipe]; exact hw
        · obtain ⟨clk, i, rfl⟩ := h2 a ha; rfl
      · rcases List.mem_cons.1 hm with hm | hm
        · obtain ⟨clk', op⟩ := e
          cases op <;> cases hm
          rfl
        · obtain ⟨_, _, hc⟩ := h2 _ hm; cases hc
    · exact ⟨[], by simp only [sstep, snodeStep, if_neg hx]; exact h, by simp, by simp⟩
  | deliver i clk =>
    simp only [sstep]
    cases hm : s.flight[i]? with
    | none => exact ⟨[], h, by simp, by simp⟩
    | some m =>
      simp only
      by_cases hd : m.dst ∈ N.ids
      · rw [if_pos hd]
        have hcm : c.flight[i]? = some m := by rw [h.flight]; exact hm
        have h' : Same { s with flight := s.flight.eraseIdx i } { c with flight := c.flight.eraseIdx i } :=
          ⟨h.node, h.idle, by simp only [h.flight]⟩
        cases hr : routeOp (N.conf m.dst) m with
        | none =>
          refine ⟨[.deliver i clk], ?_, fun _ a ha => by simp at ha; subst ha; rfl, by simp⟩
          simp only [nrun, List.foldl_cons, List.foldl_nil, nstep, hcm, if_pos hd, routeEvent_eq, hr, Option.map_none]
          exact h'
        | some e =>
          obtain ⟨es, h1, h2⟩ := nodeStep_same h' m.dst hd (clk, e)
          refine ⟨.deliver i clk :: es, ?_, fun _ a ha => ?_, fun z clk' n o hm' => ?_⟩
          · rw [nrun_cons]
            simp only [nstep, hcm, if_pos hd, routeEvent_eq, hr, Option.map_some]
            exact h1
          · rcases List.mem_cons.1 ha with rfl | ha
            · rfl
            · obtain ⟨_, _, rfl⟩ := h2 a ha; rfl
          · rcases List.mem_cons.1 hm' with hm' | hm'
            · cases hm'
            · obtain ⟨_, _, hc⟩ := h2 _ hm'; cases hc
      · rw [if_neg hd]; exact ⟨[], h, by simp, by simp⟩

theorem srun_same {N : NetConf L} {s : SNet} {c : Net} (h : Same s c) (es : List SEvent) :
    ∃ es' : List NEvent, Same (srun N s es) (nrun N c es') ∧ ((∀ e ∈ es, e.noWipe = true) → ∀ a ∈ es', a.noWipe = true) ∧
      ∀ z clk n o, .node z (clk, .recv n o) ∈ es' → .node z (clk, .recv n o) ∈ es := by
  induction es generalizing s c with
  | nil => exact ⟨[], h, by simp, by simp⟩
  | cons e es ih =>
    obtain ⟨a, h1, h2, h5⟩ := sstep_same h e
    obtain ⟨b, h3, h4, h6⟩ := ih h1
    refine ⟨a ++ b, by rw [nrun_append]; exact h3, fun hw x hx => ?_, fun z clk n o hm => ?_⟩
    · rcases List.mem_append.1 hx with hx | hx
      · exact h2 (hw e (by simp)) x hx
      · exact h4 (fun e' he' => hw e' (by simp [he'])) x hx
    · rcases List.mem_append.1 hm with hm | hm
      · rw [h5 z clk n o hm]; simp
      · exact List.mem_cons_of_mem _ (h6 z clk n o hm)

theorem same_init : Same SNet.init Net.init := ⟨fun _ => rfl, (fun _ t ht => by cases ht), rfl⟩

/-- Every reachable state of a serial network is a reachable state of the concurrent network. -/
theorem SReach.toNet {N : NetConf L} {s : SNet} (h : SReach N s) : ∃ c, NReach N c ∧ Same s c := by
  obtain ⟨es, rfl⟩ := h
  obtain ⟨es', h1, _, _⟩ := srun_same (N := N) same_init es
  exact ⟨_, ⟨es', rfl⟩, h1⟩

theorem snodeStep_node (N : NetConf L) (s : SNet) (x : Str) (e : Clock × GOp) (hx : x ∈ N.ids) (y : Str) :
    (snodeStep N s x e).node y = if y = x then gstep (N.conf x) (s.node x) e else s.node y := by
  simp only [snodeStep, if_pos hx]

/-- What an event of a serial network is. -/
inductive SAct (N : NetConf L) (s : SNet) : SEvent → SNet → Prop
  | skip (e) : SAct N s e s
  | drop (i clk m) : s.flight[i]? = some m → m.dst ∈ N.ids → routeOp (N.conf m.dst) m = none →
      SAct N s (.deliver i clk) { s with flight := s.flight.eraseIdx i }
  | deliver (i clk m ev) : s.flight[i]? = some m → m.dst ∈ N.ids → routeOp (N.conf m.dst) m = some ev →
      SAct N s (.deliver i clk) (snodeStep N { s with flight := s.flight.eraseIdx i } m.dst (clk, ev))
  | node (x e) : x ∈ N.ids → SAct N s (.node x e) (snodeStep N s x e)

theorem sstep_act (N : NetConf L) (s : SNet) (e : SEvent) : SAct N s e (sstep N s e) := by
  cases e with
  | node x e =>
    by_cases hx : x ∈ N.ids
    · exact .node x e hx
    · have : sstep N s (.node x e) = s := by simp only [sstep, snodeStep, if_neg hx]
      rw [this]; exact .skip _
  | deliver i clk =>
    simp only [sstep]
    cases hm : s.flight[i]? with
    | none => exact .skip _
    | some m =>
      simp only
      by_cases hd : m.dst ∈ N.ids
      · rw [if_pos hd]
        cases hr : routeOp (N.conf m.dst) m with
        | none => exact .drop i clk m hm hd hr
        | some ev => exact .deliver i clk m ev hm hd hr
      · rw [if_neg hd]; exact .skip _

/-- Each gossiper of a serial network is in a state the sequential gossiper can reach. -/
theorem SReach.greach {N : NetConf L} {s : SNet} (h : SReach N s) (x : Str) : GReach (N.conf x) (s.node x) := by
  obtain ⟨es, rfl⟩ := h
  have : ∀ (s : SNet), (∀ x, GReach (N.conf x) (s.node x)) → ∀ x, GReach (N.conf x) ((srun N s es).node x) := by
    induction es with
    | nil => exact fun s h => h
    | cons e es ih =>
      intro s h
      refine ih (sstep N s e) ?_
      have ha := sstep_act N s e
      generalize sstep N s e = s' at ha ⊢
      have key : ∀ (s1 : SNet) (y : Str) (ev : Clock × GOp), s1.node = s.node → y ∈ N.ids →
          ∀ x, GReach (N.conf x) ((snodeStep N s1 y ev).node x) := by
        intro s1 y ev e1 hy x
        rw [snodeStep_node N s1 y ev hy, e1]
        split
        · rename_i hxy; subst hxy; exact (h x).step _ _
        · exact h x
      cases ha with
      | skip => exact h
      | drop => exact h
      | deliver i clk m ev _ hd _ => exact key _ _ _ rfl hd
      | node y e hy => exact key _ _ _ rfl hy
  exact this SNet.init (fun _ => GReach.init _) x

end CTng
