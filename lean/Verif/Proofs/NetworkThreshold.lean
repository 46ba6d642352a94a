import Verif.Proofs.NetworkOwn
/- The invariant of a serial network during one round. -/
set_option autoImplicit false

namespace CTng
variable {L : Lib}

theorem MsgOK.transfer {a b : CryptoConfig L} {pub : L.BlsSec → L.BlsPub} {R : Round} {o : GossipObj} (h : SameVerify a b)
    (ho : MsgOK a pub R o) : MsgOK b pub R o where
  init := fun h1 h2 => ho.init h1 (by rw [verify_congr h]; exact h2)
  frag := by
    intro h1 h2
    obtain ⟨h3, h4, signer, ⟨h5, h6⟩, h7⟩ := ho.frag h1 h2
    exact ⟨h3, h4, signer, ⟨h5, by rw [← h.thresholdPublicMap]; exact h6⟩, h7⟩
  full := fun h1 h2 => ho.full h1 (by rw [verify_congr h]; exact h2)

theorem ArrOK.transfer {opt : Bool} {a b : CryptoConfig L} {pub : L.BlsSec → L.BlsPub} {R : Round} {o : GossipObj} (h : SameVerify a b)
    (ho : ArrOK opt a pub R o) : ArrOK opt b pub R o := MsgOK.transfer h ho

@[simp] theorem wireObj_type (cf : GConf L) (f : GossipObj) : (wireObj cf f).type = f.type := by unfold wireObj; split <;> rfl
@[simp] theorem wireObj_sig (cf : GConf L) (f : GossipObj) : (wireObj cf f).sig = f.sig := by unfold wireObj; split <;> rfl
@[simp] theorem wireObj_getID (cf : GConf L) (f : GossipObj) : (wireObj cf f).getID = f.getID := by unfold wireObj; split <;> rfl

/-- The process of gossiper `x` has not died. -/
def SNet.up (s : SNet) (x : Str) : Prop := (s.node x).crashed = false

/-- During a round. -/
structure SInv (N : NetConf L) (pub : L.BlsSec → L.BlsPub) (R : Round) (opt : Bool) (s : SNet) : Prop where
  reach : ∀ x, GReach (N.conf x) (s.node x)
  node : ∀ x ∈ N.ids, NodeOK (N.conf x) pub R (s.node x)
  own : ∀ x ∈ N.ids, Own (N.conf x) R (s.node x)
  round : ∀ x ∈ N.ids, RoundInv (N.conf x) pub R.pay R.kind.frag R.key (s.node x)
  flight : ∀ m ∈ s.flight, m.dst ∈ N.ids → ∀ q, m.body = .obj q → ArrOK opt (N.conf m.dst).crypto pub R q
  flood : ∀ x ∈ N.ids, ∀ y ∈ N.ids, x ≠ y → s.up y → ∀ f ∈ (s.node x).storage.fragList R.kind.frag R.key,
    Arrived (N.conf y) R.pay.p0 R.kind.frag R.key f.sig (s.node y) ∨ ⟨y, endpointOf R.kind.frag, .obj (wireObj (N.conf x) f)⟩ ∈ s.flight

/-- What the development needs of the network. -/
structure NetOK (N : NetConf L) (pub : L.BlsSec → L.BlsPub) (R : Round) : Prop where
  mesh : Mesh N
  json : L.JsonLaws
  bls : L.BlsLaws pub
  signer : ∀ x ∈ N.ids, SignerOK (N.conf x) pub R
  entity : R.pay.p0 ≠ []

/-- The same, with a mode of the optimisation. -/
structure NetBase (N : NetConf L) (pub : L.BlsSec → L.BlsPub) (R : Round) (opt : Bool) : Prop where
  mesh : Mesh N
  json : L.JsonLaws
  bls : L.BlsLaws pub
  keyed : ∀ x ∈ N.ids, Keyed (N.conf x) pub
  mode : ∀ x ∈ N.ids, Mode (N.conf x) R opt
  entity : R.pay.p0 ≠ []

theorem NetOK.base {N : NetConf L} {pub : L.BlsSec → L.BlsPub} {R : Round} (h : NetOK N pub R) : NetBase N pub R false :=
  ⟨h.mesh, h.json, h.bls, fun x hx => (h.signer x hx).toKeyed, fun x hx => (h.signer x hx).mode, h.entity⟩

/-- Receiving a fragment whose payload is saved. -/
theorem Arrived.deliverSaved {cf : GConf L} {s : GState} (hr : GReach cf s) (clk : Clock) (n : Int) (d : GossipObj)
    (hm : cf.optMode = true) (ht : d.type = .REV_FRAG) {o : GossipObj}
    (ho : s.storage.revPayload.get ⟨d.period, .REV_INIT, d.payload.p0⟩ = some o) (hc : s.crashed = false) :
    Arrived cf o.payload.p0 d.type ({ d with payload := o.payload } : GossipObj).getID d.sig (gstep cf s (clk, .recv n d)) := by
  have e : gstep cf s (clk, .recv n d) =
      (handle cf clk { s with trafficReceived := s.trafficReceived + n } { d with payload := o.payload }).1 := by
    unfold gstep gossipObjectHandler
    rw [if_neg (by simp [hc])]
    have h1 : ¬ (n > cf.optThreshold ∧ d.type = .REV_INIT) := by
      rintro ⟨_, h⟩; rw [h] at ht; cases ht
    have h3 : reconstructPayload { s with trafficReceived := s.trafficReceived + n } d = { d with payload := o.payload } := by
      unfold reconstructPayload GossipObj.getID; simp [ho]
    have h2 : cf.optMode = true ∧ d.type = .REV_FRAG := ⟨hm, ht⟩
    simp only [if_neg h1, if_pos h2, h3]
  rw [e]
  exact .handled (s1 := { s with trafficReceived := s.trafficReceived + n }) hr.fullsSent clk { d with payload := o.payload }
    (by simp [ht, GType.isFrag])

theorem snodeStep_inv {N : NetConf L} {pub : L.BlsSec → L.BlsPub} {R : Round} {opt : Bool} (hN : NetBase N pub R opt) {s s1 : SNet} (hI : SInv N pub R opt s)
    (hn : s1.node = s.node) (hsub : ∀ m ∈ s1.flight, m ∈ s.flight) (x : Str) (hx : x ∈ N.ids) (ev : Clock × GOp)
    (hev : ev.2 ≠ .periodic) (hm : ∀ n d, ev.2 = .recv n d → ArrOK opt (N.conf x).crypto pub R d)
    (hloss : ∀ m ∈ s.flight, m ∈ s1.flight ∨ (m.dst = x ∧ ∀ f, m = ⟨x, endpointOf R.kind.frag, .obj f⟩ → f.type = R.kind.frag → f.getID = R.key →
      s.up x → Arrived (N.conf x) R.pay.p0 R.kind.frag R.key f.sig (gstep (N.conf x) (s.node x) ev))) :
    SInv N pub R opt (snodeStep N s1 x ev) := by
  have hnode := snodeStep_node N s1 x ev hx
  rw [hn] at hnode
  have hnx : (snodeStep N s1 x ev).node x = gstep (N.conf x) (s.node x) ev := by rw [hnode]; simp
  have hny : ∀ y, y ≠ x → (snodeStep N s1 x ev).node y = s.node y := fun y h => by rw [hnode, if_neg h]
  have hF := Fwd.step (hI.node x hx) (hI.reach x) hN.json hN.bls (hN.keyed x hx) (hN.mode x hx) hN.entity ev hev hm
  obtain ⟨o, ho, hpost, hnew⟩ := hF.out
  have hfl : (snodeStep N s1 x ev).flight = s1.flight ++ postsOf o := by
    simp only [snodeStep, if_pos hx, hn, ho]
    simp
  have hb := (hN.keyed x hx).bls
  refine ⟨?_, ?_, ?_, ?_, ?_, ?_⟩
  · intro y
    by_cases h : y = x
    · subst h; rw [hnx]; exact (hI.reach y).step _ _
    · rw [hny y h]; exact hI.reach y
  · intro y hy
    by_cases h : y = x
    · subst h; rw [hnx]; exact hF.ok
    · rw [hny y h]; exact hI.node y hy
  · intro y hy
    by_cases h : y = x
    · subst h; rw [hnx]; exact (hI.own y hy).step (hI.reach y) (hI.node y hy) hN.json hN.bls (hN.keyed y hy) (hN.mode y hy) hN.entity ev hev hm
    · rw [hny y h]; exact hI.own y hy
  · intro y hy
    by_cases h : y = x
    · subst h; rw [hnx]
      exact (RoundInv.seqClosed hN.json hN.bls hb hN.entity R.kind.frag_isFrag).step _ (hI.reach y) ev hev (hI.round y hy)
    · rw [hny y h]; exact hI.round y hy
  · intro m hmf hd q hq
    rw [hfl] at hmf
    rcases List.mem_append.1 hmf with h | h
    · exact hI.flight m (hsub m h) hd q hq
    · exact (hpost m h q hq).transfer (hN.mesh.keys x hx m.dst hd)
  · intro a ha y hy hne hup f hf
    by_cases hax : a = x
    · subst hax
      have hya : y ≠ a := fun e => hne e.symm
      rw [hnx] at hf
      have hup' : s.up y := by unfold SNet.up at hup ⊢; rw [hny y hya] at hup; exact hup
      rw [hny y hya]
      by_cases hold : f ∈ (s.node a).storage.fragList R.kind.frag R.key
      · rcases hI.flood a ha y hy hne hup' f hold with h | h
        · exact .inl h
        · rcases hloss _ h with h' | ⟨h', _⟩
          · exact .inr (by rw [hfl]; exact List.mem_append_left _ h')
          · exact absurd h' hya
      · right
        rw [hfl]
        refine List.mem_append_right _ (hnew R.key f hf ?_ hold y (hN.mesh.connected a ha y hy hne))
        have := ((hI.reach a).step _ ev).storageInv.frags _ _ f hf
        exact congrArg GossipID.entity this.1
    · rw [hny a hax] at hf
      by_cases hyx : y = x
      · subst hyx
        have hup' : s.up y := by
          unfold SNet.up at hup ⊢
          cases hc : (s.node y).crashed with
          | false => rfl
          | true => rw [hnx, gstep_crashed _ _ _ hc, hc] at hup; cases hup
        rw [hnx]
        rcases hI.flood a ha y hy hne hup' f hf with h | h
        · exact .inl (h.step R.kind.frag_isFrag (hI.reach y) ev hev)
        · rcases hloss _ h with h' | ⟨_, h'⟩
          · exact .inr (by rw [hfl]; exact List.mem_append_left _ h')
          · have := (hI.reach a).storageInv.frags _ _ f hf
            have := h' (wireObj (N.conf a) f) rfl (by rw [wireObj_type]; exact congrArg GossipID.type this.1)
              (by rw [wireObj_getID]; exact this.1) hup'
            rw [wireObj_sig] at this
            exact .inl this
      · have hup' : s.up y := by unfold SNet.up at hup ⊢; rw [hny y hyx] at hup; exact hup
        rw [hny y hyx]
        rcases hI.flood a ha y hy hne hup' f hf with h | h
        · exact .inl h
        · rcases hloss _ h with h' | ⟨h', _⟩
          · exact .inr (by rw [hfl]; exact List.mem_append_left _ h')
          · exact absurd h' hyx

theorem endpoint_frag (k : Kind) : endpointOf k.frag ∈ objRoutes := by
  cases k <;> simp [Kind.frag, endpointOf, objRoutes]

theorem routeOp_periodic {cf : GConf L} {m : Msg} {ev : GOp} (h : routeOp cf m = some ev) : ev ≠ .periodic := by
  obtain ⟨d, r, b⟩ := m
  unfold routeOp at h
  cases b with
  | obj o => simp only at h; split at h <;> cases h; simp
  | notif n =>
    simp only at h
    split at h
    · cases h; simp
    · split at h <;> cases h; simp

theorem routeOp_obj {cf : GConf L} {m : Msg} {n : Int} {d : GossipObj} (h : routeOp cf m = some (.recv n d)) : m.body = .obj d := by
  obtain ⟨ds, r, b⟩ := m
  unfold routeOp at h
  cases b with
  | obj o => simp only at h; split at h <;> cases h; rfl
  | notif n =>
    simp only at h
    split at h
    · cases h
    · split at h <;> cases h

/-- What is posted from outside is no obstacle to the round. -/
def SEvent.ok (N : NetConf L) (pub : L.BlsSec → L.BlsPub) (R : Round) : SEvent → Prop
  | .node x e => ∀ n d, e.2 = .recv n d → MsgOK (N.conf x).crypto pub R d
  | .deliver _ _ => True

/-- If this delivers a fragment about the entity of the round to a running gossiper, the gossiper has the update saved. -/
def SEvent.inOrder (N : NetConf L) (R : Round) (s : SNet) : SEvent → Prop
  | .node _ _ => True
  | .deliver i _ => ∀ m q, s.flight[i]? = some m → m.dst ∈ N.ids → s.up m.dst → m.body = .obj q → q.type = .REV_FRAG →
    q.payload.p0 = R.pay.p0 → (s.node m.dst).storage.revPayload.has ⟨q.period, .REV_INIT, q.payload.p0⟩ = true

theorem sstep_inv {N : NetConf L} {pub : L.BlsSec → L.BlsPub} {R : Round} {opt : Bool} (hN : NetBase N pub R opt) {s : SNet} (hI : SInv N pub R opt s)
    (e : SEvent) (hw : e.noWipe = true) (he : e.ok N pub R)
    (hord : R.kind = .rev → opt = true → e.inOrder N R s) : SInv N pub R opt (sstep N s e) := by
  have ha := sstep_act N s e
  generalize sstep N s e = s' at ha ⊢
  cases ha with
  | skip => exact hI
  | drop i clk m hm hd hr =>
    refine ⟨hI.reach, hI.node, hI.own, hI.round, fun m' hm' => hI.flight m' (List.mem_of_mem_eraseIdx hm'), ?_⟩
    intro a ha y hy hne hup f hf
    rcases hI.flood a ha y hy hne hup f hf with h | h
    · exact .inl h
    · rcases mem_eraseIdx_or hm h with h' | h'
      · exact .inr h'
      · exfalso
        rw [← h'] at hr
        simp [routeOp, endpoint_frag] at hr
  | deliver i clk m ev hm hd hr =>
    have hmf := List.mem_of_getElem? hm
    refine snodeStep_inv hN hI (s1 := { s with flight := s.flight.eraseIdx i }) rfl (fun _ h => List.mem_of_mem_eraseIdx h) m.dst hd (clk, ev)
      (routeOp_periodic hr) ?_ ?_
    · intro n d e
      have e' : ev = .recv n d := e
      rw [e'] at hr
      exact hI.flight m hmf hd d (routeOp_obj hr)
    · intro m' hm'
      rcases mem_eraseIdx_or hm hm' with h' | h'
      · exact .inl h'
      · right
        subst h'
        refine ⟨rfl, ?_⟩
        intro f e ht hid hup
        have hr' : ev = .recv ((N.conf m'.dst).jsonLen f) f := by
          have e2 : routeOp (N.conf m'.dst) m' = some (.recv ((N.conf m'.dst).jsonLen f) f) := by
            rw [e]; simp [routeOp, endpoint_frag]
          rw [hr] at e2; cases e2; rfl
        rw [hr']
        have e3 : f.payload.p0 = R.pay.p0 := congrArg GossipID.entity hid
        have plain : ((N.conf m'.dst).optMode = false ∨ f.type ≠ .REV_FRAG) →
            Arrived (N.conf m'.dst) R.pay.p0 R.kind.frag R.key f.sig
              (gstep (N.conf m'.dst) (s.node m'.dst) (clk, .recv ((N.conf m'.dst).jsonLen f) f)) := by
          intro hopt
          have := Arrived.deliver (hI.reach m'.dst) clk ((N.conf m'.dst).jsonLen f) f (by rw [ht]; exact R.kind.frag_isFrag) hopt hup
          rw [ht, hid, e3] at this
          exact this
        by_cases hk : R.kind = .rev
        · cases opt with
          | false => exact plain (.inl (hN.mode _ hd hk).1)
          | true =>
            have htf : f.type = .REV_FRAG := by rw [ht, hk]; rfl
            have hsv := hord hk rfl m' f hm hd hup (by rw [e]) htf e3
            obtain ⟨o, ho⟩ := (GoMap.has_iff _ _).1 hsv
            have h1 := congrArg GossipID.entity ((hI.reach m'.dst).storageInv.payload _ _ ho).1
            have h2 := ((hI.node m'.dst hd).payload hk _ o ho (h1.trans e3)).1
            have := Arrived.deliverSaved (hI.reach m'.dst) clk ((N.conf m'.dst).jsonLen f) f (hN.mode _ hd hk).1 htf ho hup
            have e4 : ({ f with payload := o.payload } : GossipObj).getID = R.key := by
              rw [← hid, h2]; simp only [GossipObj.getID, e3]
            rw [e4] at this
            rw [h2, htf] at this
            rw [hk]
            exact this
        · refine plain (.inr ?_); rw [ht]; revert hk; cases R.kind <;> simp [Kind.frag]
  | node x e hx =>
    refine snodeStep_inv hN hI (s1 := s) rfl (fun _ h => h) x hx e ?_ (fun n d h => .of (he n d h)) (fun m hm => .inl hm)
    rintro e'
    obtain ⟨clk, op⟩ := e
    simp only at e'
    subst e'
    cases hw

/-- All along a history. -/
def NetInOrder (N : NetConf L) (R : Round) (s : SNet) (es : List SEvent) : Prop :=
  ∀ a e b, es = a ++ e :: b → e.inOrder N R (srun N s a)

theorem srun_inv_mode {N : NetConf L} {pub : L.BlsSec → L.BlsPub} {R : Round} {opt : Bool} (hN : NetBase N pub R opt) {s : SNet}
    (hI : SInv N pub R opt s) (es : List SEvent) (hw : ∀ e ∈ es, e.noWipe = true) (he : ∀ e ∈ es, e.ok N pub R)
    (hord : R.kind = .rev → opt = true → NetInOrder N R s es) : SInv N pub R opt (srun N s es) := by
  induction es generalizing s with
  | nil => exact hI
  | cons e es ih =>
    refine ih (sstep_inv hN hI e (hw e (by simp)) (he e (by simp)) (fun hk ho => hord hk ho [] e es rfl))
      (fun e' h => hw e' (by simp [h])) (fun e' h => he e' (by simp [h])) ?_
    intro hk ho a e' b hes
    exact hord hk ho (e :: a) e' b (by rw [hes]; rfl)

theorem srun_inv {N : NetConf L} {pub : L.BlsSec → L.BlsPub} {R : Round} (hN : NetOK N pub R) {s : SNet} (hI : SInv N pub R false s)
    (es : List SEvent) (hw : ∀ e ∈ es, e.noWipe = true) (he : ∀ e ∈ es, e.ok N pub R) : SInv N pub R false (srun N s es) :=
  srun_inv_mode hN.base hI es hw he (fun _ h => nomatch h)

end CTng
