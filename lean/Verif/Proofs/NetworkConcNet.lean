import Verif.Proofs.NetworkConcStep
/- The invariant of a network of concurrent gossipers during one round. -/
set_option autoImplicit false

namespace CTng
variable {L : Lib}

/-- During a round. -/
structure CInv (N : NetConf L) (pub : L.BlsSec → L.BlsPub) (R : Round) (s : Net) : Prop where
  reach : ∀ x, CReach (N.conf x) (s.node x)
  node : ∀ x ∈ N.ids, s.up x → CNode (N.conf x) pub R (s.node x)
  flight : ∀ m ∈ s.flight, m.dst ∈ N.ids → ∀ q, m.body = .obj q → MsgOK (N.conf m.dst).crypto pub R q
  flood : ∀ x ∈ N.ids, ∀ y ∈ N.ids, x ≠ y → s.up x → s.up y → ∀ f ∈ (s.node x).g.storage.fragList R.kind.frag R.key,
    FragDue (N.conf y) R f.sig (s.node y) ∨ ⟨y, endpointOf R.kind.frag, .obj f⟩ ∈ s.flight ∨
    Under (N.conf x) R (s.node x) (.sendPeers f)

theorem NetOK.env {N : NetConf L} {pub : L.BlsSec → L.BlsPub} {R : Round} (h : NetOK N pub R) {x : Str} (hx : x ∈ N.ids) :
    Env (N.conf x) pub R := ⟨h.json, h.bls, h.signer x hx, h.entity, h.mesh.threshold x hx⟩

/-- Outputs of one event, also of one that ends the process. -/
theorem cstep_emit (cf : GConf L) (c : CState) (e : Clock × CEvent) :
    (cstep cf c e).g.out = c.g.out ∨ ∃ f, HasFrame c f ∧ (cstep cf c e).g.out = (stepFrame cf e.1 c.g f).1.out := by
  obtain ⟨clk, ev⟩ := e
  unfold cstep
  split
  · exact .inl rfl
  · cases ev with
    | fire i => simp only; cases c.g.timers[i]? <;> exact .inl rfl
    | run i =>
      simp only
      cases ht : c.threads[i]? with
      | none => exact .inl rfl
      | some t =>
        simp only [stepThread]
        cases hfr : t.frames with
        | nil => exact .inl rfl
        | cons f fs =>
          right
          refine ⟨f, ⟨t, List.mem_of_getElem? ht, by rw [hfr]; simp⟩, ?_⟩
          simp only
          rcases hst : stepFrame cf clk c.g f with ⟨s', new⟩
          cases new with
          | some new => rfl
          | none =>
            simp only
            split <;> rfl
    | _ => exact .inl rfl

theorem FragDue.of_recv {cf : GConf L} {R : Round} {c : CState} {q : GossipObj} (clk : Clock) (n : Int) (h : c.g.crashed = false)
    (ht : q.type = R.kind.frag) (hid : q.getID = R.key) : FragDue cf R q.sig (cstep cf c (clk, .recv n q)) := by
  refine .inr ⟨.recv n q, ⟨q, rfl, ht, hid, .inl ⟨n, rfl⟩⟩, ?_⟩
  unfold cstep
  rw [h]
  exact Under.new

/-- A fragment of the round that is sent is posted to every connected gossiper. -/
theorem sendPeers_posts {cf : GConf L} {pub : L.BlsSec → L.BlsPub} {R : Round} (hS : SignerOK cf pub R) (clk : Clock) (s : GState)
    {f : GossipObj} (ht : f.type = R.kind.frag) (u : Str) (hu : u ∈ cf.connected) :
    ⟨u, endpointOf R.kind.frag, .obj f⟩ ∈ postsOf ((stepFrame cf clk s (.sendPeers f)).1.out.drop s.out.length) := by
  have hout : (stepFrame cf clk s (.sendPeers f)).1.out = s.out ++ cf.connected.map fun u => .peer u (endpointOf f.type) (.obj f) := by
    simp only [stepFrame, sendToGossipers]
    have h1 : f.type ≠ .REV_INIT := by rw [ht]; cases R.kind <;> simp [Kind.frag]
    rw [if_neg (fun h => h1 h.2)]
    rw [if_neg]
    rintro ⟨h2, h3⟩
    have hk : R.kind = .rev := by rw [ht] at h3; cases hk : R.kind <;> rw [hk] at h3 <;> simp [Kind.frag] at h3
    have := (hS.unopt hk).2 f
    omega
  rw [hout, List.drop_left, ht]
  unfold postsOf
  rw [List.mem_filterMap]
  exact ⟨_, List.mem_map.2 ⟨u, hu, rfl⟩, rfl⟩

theorem cnodeStep_inv {N : NetConf L} {pub : L.BlsSec → L.BlsPub} {R : Round} (hN : NetOK N pub R) {s s1 : Net} (hI : CInv N pub R s)
    (hn : s1.node = s.node) (hsub : ∀ m ∈ s1.flight, m ∈ s.flight) (x : Str) (hx : x ∈ N.ids) (ev : Clock × CEvent)
    (hev : ev.2 ≠ .periodic) (hm : ∀ n d, ev.2 = .recv n d → MsgOK (N.conf x).crypto pub R d)
    (hloss : ∀ m ∈ s.flight, m ∈ s1.flight ∨ (m.dst = x ∧ ∀ f, m = ⟨x, endpointOf R.kind.frag, .obj f⟩ → ∃ n, ev.2 = .recv n f)) :
    CInv N pub R (nodeStep N s1 x ev) := by
  have hnode := nodeStep_node N s1 x ev hx
  rw [hn] at hnode
  have hnx : (nodeStep N s1 x ev).node x = cstep (N.conf x) (s.node x) ev := by rw [hnode]; simp
  have hny : ∀ y, y ≠ x → (nodeStep N s1 x ev).node y = s.node y := fun y h => by rw [hnode, if_neg h]
  have hfl : (nodeStep N s1 x ev).flight =
      s1.flight ++ postsOf ((cstep (N.conf x) (s.node x) ev).g.out.drop (s.node x).g.out.length) := by
    simp only [nodeStep, if_pos hx, hn]
  have hupo : ∀ y, (nodeStep N s1 x ev).up y → s.up y := by
    intro y hy
    by_cases e' : y = x
    · subst e'; unfold Net.up at hy ⊢; rw [hnx] at hy; exact up_before _ hy
    · unfold Net.up at hy ⊢; rw [hny y e'] at hy; exact hy
  have hstep : (nodeStep N s1 x ev).up x → Step (N.conf x) pub R (s.node x) ev (cstep (N.conf x) (s.node x) ev) := by
    intro hu
    refine ⟨hN.env hx, hI.node x hx (hupo x hu), (hI.reach x).sound, ((hI.reach x).step ev).sound, cstep_cact _ _ _ ?_⟩
    unfold Net.up at hu; rw [hnx] at hu; exact hu
  refine ⟨?_, ?_, ?_, ?_⟩
  · intro y
    by_cases h : y = x
    · subst h; rw [hnx]; exact (hI.reach y).step _
    · rw [hny y h]; exact hI.reach y
  · intro y hy hu
    by_cases h : y = x
    · subst h; rw [hnx]; exact CNode.step (hstep hu) hev hm
    · rw [hny y h]; exact hI.node y hy (hupo y hu)
  · intro m hmf hd q hq
    rw [hfl] at hmf
    rcases List.mem_append.1 hmf with h | h
    · exact hI.flight m (hsub m h) hd q hq
    · refine MsgOK.transfer (hN.mesh.keys x hx m.dst hd) ?_
      cases hc : (s.node x).g.crashed with
      | true => rw [cstep_crashed _ _ _ hc] at h; simp [postsOf] at h
      | false =>
        have hCN := hI.node x hx hc
        rcases cstep_emit (N.conf x) (s.node x) ev with h1 | ⟨f, hf, h1⟩
        · rw [h1] at h; simp [postsOf] at h
        · rw [h1] at h
          exact posts_ok (hN.env hx) hCN.ok (hI.reach x).sound.storage ev.1 f (hCN.frames f hf) m h q hq
  · intro a ha y hy hne hua huy f hf
    have hua0 := hupo a hua
    have huy0 := hupo y huy
    -- fragments due at `y` stay so
    have hdue : FragDue (N.conf y) R f.sig (s.node y) → FragDue (N.conf y) R f.sig ((nodeStep N s1 x ev).node y) := by
      intro hd
      by_cases h : y = x
      · subst h; rw [hnx]; exact hd.step (hstep huy)
      · rw [hny y h]; exact hd
    have hres : FragDue (N.conf y) R f.sig (s.node y) ∨ ⟨y, endpointOf R.kind.frag, .obj f⟩ ∈ s.flight →
        f.type = R.kind.frag → f.getID = R.key →
        FragDue (N.conf y) R f.sig ((nodeStep N s1 x ev).node y) ∨ ⟨y, endpointOf R.kind.frag, .obj f⟩ ∈ (nodeStep N s1 x ev).flight := by
      rintro (hd | hd) ht hid
      · exact .inl (hdue hd)
      · rcases hloss _ hd with h | ⟨h1, h2⟩
        · exact .inr (by rw [hfl]; exact List.mem_append_left _ h)
        · have hyx : y = x := h1
          subst hyx
          obtain ⟨n, hn'⟩ := h2 f rfl
          obtain ⟨clk, op⟩ := ev
          simp only at hn'
          subst hn'
          left; rw [hnx]
          exact .of_recv clk n huy0 ht hid
    by_cases hax : a = x
    · subst hax
      rw [hnx] at hf
      have hst := hstep hua
      have hid := ((hI.reach a).step ev).sound.storage.frags _ _ f hf
      have hid : f.getID = R.key := hid.1
      have ht : f.type = R.kind.frag := congrArg GossipID.type hid
      have hnew : ∀ h : Under (N.conf a) R (s.node a) (.sendPeers f) ∨ Under (N.conf a) R (cstep (N.conf a) (s.node a) ev) (.sendPeers f),
          ⟨y, endpointOf R.kind.frag, .obj f⟩ ∈ (nodeStep N s1 a ev).flight ∨ Under (N.conf a) R ((nodeStep N s1 a ev).node a) (.sendPeers f) := by
        rintro (hu | hu)
        · rcases hst.under hu with h | h
          · exact .inr (by rw [hnx]; exact h)
          · left
            rw [hfl]
            refine List.mem_append_right _ ?_
            rw [h.1]
            exact sendPeers_posts (hN.signer a ha) ev.1 _ ht y (hN.mesh.connected a ha y hy hne)
        · exact .inr (by rw [hnx]; exact hu)
      obtain ⟨r, hr⟩ := hst.mono.frags R.kind.frag R.key
      by_cases hold : f ∈ (s.node a).g.storage.fragList R.kind.frag R.key
      · rcases hI.flood a ha y hy hne hua0 huy0 f hold with h | h | h
        · rcases hres (.inl h) ht hid with h | h
          · exact .inl h
          · exact .inr (.inl h)
        · rcases hres (.inr h) ht hid with h | h
          · exact .inl h
          · exact .inr (.inl h)
        · exact .inr (hnew (.inl h))
      · have hfr : f ∈ r := by
          rw [hr] at hf
          rcases List.mem_append.1 hf with h | h
          · exact absurd h hold
          · exact h
        obtain ⟨q, hq, _, _, _, _, hu⟩ := frag_grown hst hr (by rintro rfl; cases hfr)
        rw [hq] at hfr
        simp at hfr
        subst hfr
        exact .inr (hnew (.inr hu))
    · rw [hny a hax] at hf ⊢
      have hid := (hI.reach a).sound.storage.frags _ _ f hf
      have hid : f.getID = R.key := hid.1
      have ht : f.type = R.kind.frag := congrArg GossipID.type hid
      rcases hI.flood a ha y hy hne hua0 huy0 f hf with h | h | h
      · rcases hres (.inl h) ht hid with h | h
        · exact .inl h
        · exact .inr (.inl h)
      · rcases hres (.inr h) ht hid with h | h
        · exact .inl h
        · exact .inr (.inl h)
      · exact .inr (.inr h)

/-- What is posted from outside is no obstacle to the round. -/
def NEvent.ok (N : NetConf L) (pub : L.BlsSec → L.BlsPub) (R : Round) : NEvent → Prop
  | .node x e => ∀ n d, e.2 = .recv n d → MsgOK (N.conf x).crypto pub R d
  | .deliver _ _ => True

theorem routeEvent_obj {cf : GConf L} {m : Msg} {n : Int} {d : GossipObj} (h : routeEvent cf m = some (.recv n d)) : m.body = .obj d := by
  obtain ⟨ds, r, b⟩ := m
  unfold routeEvent at h
  cases b with
  | obj o => simp only at h; split at h <;> cases h; rfl
  | notif n =>
    simp only at h
    split at h
    · cases h
    · split at h <;> cases h

theorem cinv_step {N : NetConf L} {pub : L.BlsSec → L.BlsPub} {R : Round} (hN : NetOK N pub R) {s : Net} (hI : CInv N pub R s)
    (e : NEvent) (hw : e.noWipe = true) (he : e.ok N pub R) : CInv N pub R (nstep N s e) := by
  have ha := nstep_act N s e
  generalize nstep N s e = s' at ha ⊢
  cases ha with
  | skip => exact hI
  | drop i clk m hm hd hr =>
    refine ⟨hI.reach, hI.node, fun m' hm' => hI.flight m' (List.mem_of_mem_eraseIdx hm'), ?_⟩
    intro a ha y hy hne hua huy f hf
    rcases hI.flood a ha y hy hne hua huy f hf with h | h | h
    · exact .inl h
    · rcases mem_eraseIdx_or hm h with h' | h'
      · exact .inr (.inl h')
      · exfalso
        rw [← h'] at hr
        simp [routeEvent, endpoint_frag] at hr
    · exact .inr (.inr h)
  | deliver i clk m ev hm hd hr =>
    have hmf := List.mem_of_getElem? hm
    refine cnodeStep_inv hN hI (s1 := { s with flight := s.flight.eraseIdx i }) rfl (fun _ h => List.mem_of_mem_eraseIdx h) m.dst hd (clk, ev)
      (routeEvent_periodic hr) ?_ ?_
    · intro n d e
      have e' : ev = .recv n d := e
      rw [e'] at hr
      exact hI.flight m hmf hd d (routeEvent_obj hr)
    · intro m' hm'
      rcases mem_eraseIdx_or hm hm' with h' | h'
      · exact .inl h'
      · right
        subst h'
        refine ⟨rfl, ?_⟩
        intro f e
        refine ⟨(N.conf m'.dst).jsonLen f, ?_⟩
        have e2 : routeEvent (N.conf m'.dst) m' = some (.recv ((N.conf m'.dst).jsonLen f) f) := by
          rw [e]; simp [routeEvent, endpoint_frag]
        rw [hr] at e2; cases e2; rfl
  | node x e hx =>
    refine cnodeStep_inv hN hI (s1 := s) rfl (fun _ h => h) x hx e ?_ he (fun m hm => .inl hm)
    rintro e'
    obtain ⟨clk, op⟩ := e
    simp only at e'
    subst e'
    cases hw

theorem cinv_run {N : NetConf L} {pub : L.BlsSec → L.BlsPub} {R : Round} (hN : NetOK N pub R) {s : Net} (hI : CInv N pub R s)
    (es : List NEvent) (hw : ∀ e ∈ es, e.noWipe = true) (he : ∀ e ∈ es, e.ok N pub R) : CInv N pub R (nrun N s es) := by
  induction es generalizing s with
  | nil => exact hI
  | cons e es ih =>
    exact ih (cinv_step hN hI e (hw e (by simp)) (he e (by simp))) (fun e' h => hw e' (by simp [h])) (fun e' h => he e' (by simp [h]))

end CTng
