import Verif.Proofs.NetworkConcNet
/- Why an entity is blacklisted during the round of its accusation. -/
set_option autoImplicit false

namespace CTng
variable {L : Lib}

/-- The gossip object at a program point. -/
def Frame.object : Frame → Option GossipObj
  | .recv _ g | .recon g | .handle g | .blk g | .initFull g | .initFrag g | .initMal g | .initCon g | .store g | .conCount g
  | .fragFull g | .fragStore g | .fragGen g | .fullBlk g | .fullCount g | .sendPeers g | .storeBl g | .storeNote g
  | .arm g | .signBlk g | .sign g | .sendOwner g => some g
  | .fullNote | .notify _ _ | .request _ _ | .save | .wipe => none

section
variable (cf : GConf L) (R : Round) (c : CState)

/-- A full list of fragments or a conflict proof. -/
def Cause : Prop :=
  cf.crypto.threshold ≤ ((c.g.storage.fragList R.kind.frag R.key).length : Int) ∨
  ∃ k o, c.g.storage.conInit.get k = some o ∧ o.payload.p0 = R.pay.p0

structure CauseInv : Prop where
  black : c.g.blacklist.has R.pay.p0 = true → Cause cf R c
  full : ∀ f g, HasFrame c f → f.object = some g → g.type = .ACC_FULL → g.payload.p0 = R.pay.p0 →
    cf.crypto.threshold ≤ ((c.g.storage.fragList R.kind.frag R.key).length : Int)
  con : ∀ g, HasFrame c (.storeBl g) → g.type = .CON_INIT → g.payload.p0 = R.pay.p0 → Cause cf R c
end

section
variable {cf : GConf L} {pub : L.BlsSec → L.BlsPub} {R : Round} {c c' : CState} {e : Clock × CEvent}

theorem Cause.step (h : Step cf pub R c e c') (hc : Cause cf R c) : Cause cf R c' := by
  rcases hc with h1 | ⟨k, o, h1, h2⟩
  · exact .inl (h.mono.length h1)
  · obtain ⟨h3, h4, _⟩ := h.s.storage.objs .CON_INIT k o h1
    have hk : k.type = .CON_INIT := by rw [← h3]; exact h4
    have := h.mono.held k (by rw [hk]; exact (GoMap.has_iff _ _).2 ⟨o, h1⟩)
    rw [hk] at this
    obtain ⟨o', ho'⟩ := (GoMap.has_iff _ _).1 this
    refine .inr ⟨k, o', ho', ?_⟩
    have e1 : o'.payload.p0 = k.entity := congrArg GossipID.entity (h.s'.storage.objs .CON_INIT k o' ho').1
    have e2 : o.payload.p0 = k.entity := congrArg GossipID.entity h3
    rw [e1, ← e2, h2]

/-- Full accusations at new program points: handed on, or made from a list. -/
theorem accFull_new (clk : Clock) (s : GState) (f : Frame) (hwt : f.wt) (new : List Frame) (hnew : (stepFrame cf clk s f).2 = some new)
    (f' : Frame) (hm : f' ∈ new) (g : GossipObj) (ho : f'.object = some g) (ht : g.type = .ACC_FULL) :
    f.object = some g ∨ ∃ q, f = .fragGen q ∧ generateFULL cf clk (getObjectList s q.getID q.type) q.getTargetType = some g := by
  have aft : ∀ g' b, f' ∈ afterStore g' b → g' = g := by
    intro g' b hf'
    unfold afterStore at hf'
    split at hf' <;> (try split at hf') <;> simp at hf' <;>
      (try (rcases hf' with rfl | rfl | rfl)) <;> (try (rcases hf' with rfl | rfl)) <;> (try subst hf') <;>
      first | exact Option.some.inj ho | cases ho
  cases f with
  | recv n q =>
    simp only [stepFrame] at hnew
    split at hnew <;> simp at hnew
    subst hnew; simp at hm; subst hm; exact .inl ho
  | recon q =>
    simp only [stepFrame, Option.some.injEq] at hnew; subst hnew
    simp at hm; subst hm
    simp only [Frame.object, Option.some.injEq] at ho
    split at ho
    · rename_i hrf
      exfalso
      subst ho
      simp only [reconstructPayload, hrf.2] at ht
      cases ht
    · subst ho; exact .inl rfl
  | handle q =>
    simp only [stepFrame, Option.some.injEq] at hnew; subst hnew
    split at hm <;> simp at hm
    subst hm; exact .inl ho
  | blk q =>
    simp only [stepFrame, Option.some.injEq] at hnew; subst hnew
    split at hm
    · cases hm
    · split at hm <;> simp at hm <;> subst hm <;> exact .inl ho
  | initFull q =>
    simp only [stepFrame, Option.some.injEq] at hnew; subst hnew
    split at hm <;> simp at hm
    subst hm; exact .inl ho
  | initFrag q =>
    simp only [stepFrame, Option.some.injEq] at hnew; subst hnew
    split at hm
    · cases hm
    · split at hm <;> simp at hm <;> subst hm <;> exact .inl ho
  | initMal q =>
    simp only [stepFrame, Option.some.injEq] at hnew; subst hnew
    split at hm <;> simp at hm <;> subst hm <;> exact .inl ho
  | initCon q =>
    simp only [stepFrame, Option.some.injEq] at hnew; subst hnew
    simp at hm; subst hm
    simp only [Frame.object, Option.some.injEq] at ho
    subst ho; cases ht
  | store q =>
    simp only [stepFrame] at hnew
    split at hnew
    · cases hnew
    · simp at hnew; subst hnew; exact .inl (congrArg some (aft _ _ hm))
    · split at hnew
      · simp at hnew; subst hnew; exact .inl (congrArg some (aft _ _ hm))
      · simp at hnew; subst hnew; simp at hm; subst hm; exact .inl ho
  | storeBl q => simp only [stepFrame, Option.some.injEq] at hnew; subst hnew; simp at hm; subst hm; exact .inl ho
  | storeNote q => simp only [stepFrame, Option.some.injEq] at hnew; subst hnew; exact .inl (congrArg some (aft _ _ hm))
  | signBlk q =>
    simp only [stepFrame, Option.some.injEq] at hnew; subst hnew
    split at hm <;> simp at hm
    subst hm; exact .inl ho
  | sign q =>
    simp only [stepFrame, signStatement] at hnew
    cases hg : generateFRAG cf q with
    | none => rw [hg] at hnew; cases hnew
    | some q' =>
      rw [hg] at hnew; simp at hnew; subst hnew; simp at hm; subst hm
      simp only [Frame.object, Option.some.injEq] at ho
      subst ho
      rw [generateFRAG_type hg] at ht
      have hw : q.type.isInit = true := hwt
      revert hw ht
      cases q.type <;> simp [GType.isInit]
  | conCount q =>
    simp only [stepFrame, Option.some.injEq] at hnew; subst hnew
    split at hm <;> simp at hm
    subst hm; exact .inl ho
  | fragFull q =>
    simp only [stepFrame, Option.some.injEq] at hnew; subst hnew
    split at hm <;> simp at hm
    subst hm; exact .inl ho
  | fragStore q =>
    simp only [stepFrame, Option.some.injEq] at hnew; subst hnew
    rcases List.mem_append.1 hm with h1 | h1 <;> split at h1 <;> simp at h1 <;> subst h1 <;> exact .inl ho
  | fragGen q =>
    simp only [stepFrame] at hnew
    split at hnew
    · cases hnew
    · rename_i o hgen
      simp at hnew; subst hnew; simp at hm; subst hm
      simp only [Frame.object, Option.some.injEq] at ho
      subst ho
      exact .inr ⟨q, rfl, hgen⟩
  | fullBlk q =>
    simp only [stepFrame, Option.some.injEq] at hnew; subst hnew
    split at hm <;> simp at hm
    subst hm; exact .inl ho
  | fullCount q =>
    simp only [stepFrame, Option.some.injEq] at hnew; subst hnew
    split at hm <;> simp at hm <;> subst hm
    · exact .inl ho
    · cases ho
  | _ => simp only [stepFrame, Option.some.injEq] at hnew; subst hnew; cases hm

theorem storeBl_new (clk : Clock) (s : GState) (f : Frame) (new : List Frame) (hnew : (stepFrame cf clk s f).2 = some new)
    (g : GossipObj) (hm : .storeBl g ∈ new) : f = .store g := by
  have aft : ∀ g' b, Frame.storeBl g ∉ afterStore g' b := by
    intro g' b hf'
    unfold afterStore at hf'
    split at hf' <;> (try split at hf') <;> simp at hf'
  cases f with
  | recv n q =>
    simp only [stepFrame] at hnew
    split at hnew <;> simp at hnew
    subst hnew; simp at hm
  | blk q =>
    simp only [stepFrame, Option.some.injEq] at hnew; subst hnew
    split at hm
    · cases hm
    · split at hm <;> simp at hm
  | initFrag q =>
    simp only [stepFrame, Option.some.injEq] at hnew; subst hnew
    split at hm
    · cases hm
    · split at hm <;> simp at hm
  | store q =>
    simp only [stepFrame] at hnew
    split at hnew
    · cases hnew
    · simp at hnew; subst hnew; exact absurd hm (aft _ _)
    · split at hnew
      · simp at hnew; subst hnew; exact absurd hm (aft _ _)
      · simp at hnew; subst hnew; simp at hm; subst hm; rfl
  | storeNote q => simp only [stepFrame, Option.some.injEq] at hnew; subst hnew; exact absurd hm (aft _ _)
  | sign q =>
    simp only [stepFrame] at hnew
    split at hnew
    · cases hnew
    · simp at hnew; subst hnew; simp at hm
  | fragStore q =>
    simp only [stepFrame, Option.some.injEq] at hnew; subst hnew
    rcases List.mem_append.1 hm with h1 | h1 <;> split at h1 <;> simp at h1
  | fragGen q =>
    simp only [stepFrame] at hnew
    split at hnew
    · cases hnew
    · simp at hnew; subst hnew; simp at hm
  | _ => simp only [stepFrame, Option.some.injEq] at hnew; subst hnew; (try split at hm) <;> simp at hm

theorem CauseInv.step (hk : R.kind = .acc) (h : Step cf pub R c e c') (hp : e.2 ≠ .periodic) (hI : CauseInv cf R c)
    (hm : ∀ n d, e.2 = .recv n d → d.type = .ACC_FULL → d.payload.p0 ≠ R.pay.p0) : CauseInv cf R c' := by
  refine ⟨?_, ?_, ?_⟩
  · intro hb
    by_cases h0 : c.g.blacklist.has R.pay.p0 = true
    · exact (hI.black h0).step h
    · cases h.act.gact (R := R) with
      | same _ h2 _ => rw [h2] at hb; exact absurd hb h0
      | exec f hf hx =>
        rw [hx.1] at hb
        rcases stepFrame_blacklist (cf := cf) e.1 c.g f with h1 | ⟨g, rfl, hty, h1⟩
        · rw [h1] at hb; exact absurd hb h0
        · have hp0 : g.payload.p0 = R.pay.p0 := by
            rw [h1] at hb
            unfold addBlacklist at hb
            split at hb
            · exact absurd hb h0
            · simp only [GoMap.has_set, Bool.or_eq_true, decide_eq_true_eq] at hb
              rcases hb with hb | hb
              · first | exact hb | exact hb.symm
              · exact absurd hb h0
          rcases hty with hty | hty
          · exact (hI.con g hf hty hp0).step h
          · exact .inl (h.mono.length (hI.full _ g hf rfl hty hp0))
  · intro f g hf hob hty hp0
    rcases h.act.frames hf with h1 | ⟨n, o, he, rfl⟩ | ⟨n, x, rfl⟩ | ⟨n, x, rfl⟩ | ⟨h1, _⟩ | ⟨o, ho, rfl⟩ | ⟨a, new, ha, hn, hm', _⟩
    · exact h.mono.length (hI.full f g h1 hob hty hp0)
    · simp only [Frame.object, Option.some.injEq] at hob
      subst hob
      exact absurd hp0 (hm n o he hty)
    · cases hob
    · cases hob
    · exact absurd h1 hp
    · simp only [Frame.object, Option.some.injEq] at hob
      subst hob
      have : o.type.isInit = true := h.s'.wt _ hf
      rw [hty] at this; cases this
    · rcases accFull_new e.1 c.g a (h.s.wt a ha) new hn f hm' g hob hty with h1 | ⟨q, rfl, hgen⟩
      · exact h.mono.length (hI.full a g ha h1 hty hp0)
      · have hqf : q.type.isFrag = true := h.s.wt _ ha
        have hqt : q.type = R.kind.frag := by
          have := generateFULL_type hgen
          rw [hty, getTargetType_frag hqf] at this
          rw [hk]
          clear hgen ha hn
          revert this hqf
          cases q.type <;> simp [fragTarget, Kind.frag, GType.isFrag]
        refine h.mono.length (h.inv.gen q ha hqt ?_)
        obtain ⟨f0, hf0, e0⟩ := generateFULL_payload hgen
        unfold getObjectList at hf0
        have hid := (h.s.storage.frags _ _ f0 hf0).1
        rw [hqt] at hf0
        rw [e0] at hp0
        have hper := (h.inv.ok.frags _ f0 hf0 hp0).1
        rw [← hid]
        have hft : f0.type = R.kind.frag := by rw [← hqt]; exact congrArg GossipID.type hid
        simp only [GossipObj.getID, Round.key, hper, hp0, hft]
  · intro g hf hty hp0
    rcases h.act.frames hf with h1 | ⟨n, o, he, h1⟩ | ⟨n, x, h1⟩ | ⟨n, x, h1⟩ | ⟨h1, _⟩ | ⟨o, ho, h1⟩ | ⟨a, new, ha, hn, hm', hg⟩
    · exact (hI.con g h1 hty hp0).step h
    · cases h1
    · cases h1
    · cases h1
    · exact absurd h1 hp
    · cases h1
    · have := storeBl_new e.1 c.g a new hn g hm'
      subst this
      right
      have hobj : g.type.isObj = true := h.s.wt _ ha
      rcases hlk : storeLocked { c.g with timerlist := c.g.timerlist ++ [e.1.second] } g with ⟨s1, b⟩
      simp only [stepFrame] at hn hg
      cases hv : g.verify cf.crypto with
      | panic => rw [hv] at hn; cases hn
      | err x =>
        rw [hv] at hn
        simp only [Option.some.injEq] at hn
        subst hn
        unfold afterStore at hm'
        split at hm' <;> (try split at hm') <;> simp at hm'
      | ok =>
        rw [hv] at hn hg
        simp only [hlk] at hn hg
        rcases storage_storeLocked hobj hlk with ⟨rfl, _, _⟩ | ⟨rfl, h1, _⟩
        · simp only [Option.some.injEq] at hn
          subst hn
          unfold afterStore at hm'
          split at hm' <;> (try split at hm') <;> simp at hm'
        · refine ⟨g.getID, g, ?_, hp0⟩
          simp only at hg
          rw [hg, h1]
          have := Storage.objs_putObj_same c.g.storage g.type g.getID g hobj
          rw [hty] at this
          change (c.g.storage.putObj .CON_INIT g.getID g).conInit = c.g.storage.conInit.set g.getID g at this
          simp only [hty]
          rw [this]; simp

/-! ### Across the network -/

/-- What is known of causes across the network. -/
structure NCause (N : NetConf L) (R : Round) (s : Net) : Prop where
  node : ∀ x ∈ N.ids, s.up x → CauseInv (N.conf x) R (s.node x)
  flight : ∀ m ∈ s.flight, m.dst ∈ N.ids → ∀ q, m.body = .obj q → q.type = .ACC_FULL → q.payload.p0 ≠ R.pay.p0

/-- No full accusation of the entity of the round is posted from outside. -/
def NEvent.noFull (R : Round) : NEvent → Prop
  | .node _ e => ∀ n d, e.2 = .recv n d → d.type = .ACC_FULL → d.payload.p0 ≠ R.pay.p0
  | .deliver _ _ => True

theorem posts_notFull {s : GState} (hI : StorageInv cf s.storage) (clk : Clock) (f : Frame) (hwt : f.wt) (m : Msg)
    (hm : m ∈ postsOf ((stepFrame cf clk s f).1.out.drop s.out.length)) (q : GossipObj) (hq : m.body = .obj q) : q.type ≠ .ACC_FULL := by
  obtain ⟨o, ho, e⟩ := stepFrame_out cf clk s f
  rw [e, List.drop_left] at hm
  cases ho with
  | none => simp [postsOf] at hm
  | signed g f _ => simp [postsOf] at hm
  | full g o _ => simp [postsOf] at hm
  | owner g => simp [postsOf] at hm
  | announce g _ _ =>
    simp [postsOf] at hm
    obtain ⟨u, _, rfl⟩ := hm
    cases hq
  | forward g g' hg' _ =>
    simp [postsOf] at hm
    obtain ⟨u, _, rfl⟩ := hm
    simp only [Body.obj.injEq] at hq
    subst hq
    have hty : g'.type = g.type := by rw [hg']; split <;> rfl
    rw [hty]
    intro h'
    have : g.type.toPeers = true := hwt
    rw [h'] at this; cases this
  | ask n x => simp [postsOf] at hm; subst hm; cases hq
  | answer n x o ho hne =>
    simp [postsOf] at hm; subst hm
    simp only [Body.obj.injEq] at hq
    subst hq
    unfold getREVrequested at ho
    simp only at ho
    cases hg : s.storage.revPayload.get ⟨x.period, .REV_INIT, x.entity⟩ with
    | none => rw [hg] at ho; subst ho; exact absurd rfl hne
    | some o' =>
      rw [hg] at ho; simp at ho; subst ho
      rw [(hI.payload _ _ hg).2.1]; simp

theorem ncause_node {N : NetConf L} (hk : R.kind = .acc) (hN : NetOK N pub R) {s s1 : Net} (hI : CInv N pub R s) (hC : NCause N R s)
    (hn : s1.node = s.node) (hsub : ∀ m ∈ s1.flight, m ∈ s.flight) (x : Str) (hx : x ∈ N.ids) (ev : Clock × CEvent)
    (hev : ev.2 ≠ .periodic) (hm : ∀ n d, ev.2 = .recv n d → d.type = .ACC_FULL → d.payload.p0 ≠ R.pay.p0) :
    NCause N R (nodeStep N s1 x ev) := by
  have hnode := nodeStep_node N s1 x ev hx
  rw [hn] at hnode
  have hnx : (nodeStep N s1 x ev).node x = cstep (N.conf x) (s.node x) ev := by rw [hnode]; simp
  have hny : ∀ y, y ≠ x → (nodeStep N s1 x ev).node y = s.node y := fun y h => by rw [hnode, if_neg h]
  have hfl : (nodeStep N s1 x ev).flight =
      s1.flight ++ postsOf ((cstep (N.conf x) (s.node x) ev).g.out.drop (s.node x).g.out.length) := by
    simp only [nodeStep, if_pos hx, hn]
  refine ⟨?_, ?_⟩
  · intro y hy hu
    by_cases h : y = x
    · subst h
      have hu' : (cstep (N.conf y) (s.node y) ev).g.crashed = false := by unfold Net.up at hu; rw [hnx] at hu; exact hu
      rw [hnx]
      exact CauseInv.step hk ⟨hN.env hy, hI.node y hy (up_before _ hu'), (hI.reach y).sound, ((hI.reach y).step ev).sound,
        cstep_cact _ _ _ hu'⟩ hev (hC.node y hy (up_before _ hu')) hm
    · have hu' : s.up y := by unfold Net.up at hu ⊢; rw [hny y h] at hu; exact hu
      rw [hny y h]; exact hC.node y hy hu'
  · intro m hmf hd q hq
    rw [hfl] at hmf
    rcases List.mem_append.1 hmf with h | h
    · exact hC.flight m (hsub m h) hd q hq
    · intro ht
      refine absurd ht ?_
      rcases cstep_emit (N.conf x) (s.node x) ev with h1 | ⟨f, hf, h1⟩
      · rw [h1] at h; simp [postsOf] at h
      · rw [h1] at h
        exact posts_notFull (hI.reach x).sound.storage ev.1 f ((hI.reach x).sound.wt f hf) m h q hq

theorem ncause_step {N : NetConf L} (hk : R.kind = .acc) (hN : NetOK N pub R) {s : Net} (hI : CInv N pub R s) (hC : NCause N R s)
    (e : NEvent) (hw : e.noWipe = true) (hf : e.noFull R) : NCause N R (nstep N s e) := by
  have ha := nstep_act N s e
  generalize nstep N s e = s' at ha ⊢
  cases ha with
  | skip => exact hC
  | drop i clk m hm hd hr => exact ⟨hC.node, fun m' hm' => hC.flight m' (List.mem_of_mem_eraseIdx hm')⟩
  | deliver i clk m ev hm hd hr =>
    refine ncause_node hk hN hI hC (s1 := { s with flight := s.flight.eraseIdx i }) rfl (fun _ h => List.mem_of_mem_eraseIdx h) m.dst hd
      (clk, ev) (routeEvent_periodic hr) ?_
    intro n d e'
    have e' : ev = .recv n d := e'
    rw [e'] at hr
    exact hC.flight m (List.mem_of_getElem? hm) hd d (routeEvent_obj hr)
  | node x e hx =>
    refine ncause_node hk hN hI hC (s1 := s) rfl (fun _ h => h) x hx e ?_ hf
    rintro e'
    obtain ⟨clk, op⟩ := e
    simp only at e'
    subst e'
    cases hw

theorem ncause_run {N : NetConf L} (hk : R.kind = .acc) (hN : NetOK N pub R) {s : Net} (hI : CInv N pub R s) (hC : NCause N R s)
    (es : List NEvent) (hw : ∀ e ∈ es, e.noWipe = true) (he : ∀ e ∈ es, e.ok N pub R) (hf : ∀ e ∈ es, e.noFull R) :
    NCause N R (nrun N s es) := by
  induction es generalizing s with
  | nil => exact hC
  | cons e es ih =>
    exact ih (cinv_step hN hI e (hw e (by simp)) (he e (by simp))) (ncause_step hk hN hI hC e (hw e (by simp)) (hf e (by simp)))
      (fun e' h => hw e' (by simp [h])) (fun e' h => he e' (by simp [h])) (fun e' h => hf e' (by simp [h]))

end
end CTng
