import Verif.Proofs.GossiperStep
/- The main invariant of the concurrent gossiper. -/
set_option autoImplicit false

namespace CTng
variable {L : Lib} (cf : GConf L)

/-- What the stored maps satisfy. -/
structure StorageInv (s : Storage) : Prop where
  objs : ∀ t k o, (s.objs t).get k = some o → o.getID = k ∧ o.type = t ∧ o.verify cf.crypto = .ok
  payload : ∀ k o, s.revPayload.get k = some o → o.getID = k ∧ o.type = .REV_INIT ∧ o.verify cf.crypto = .ok
  frags : ∀ t k o, o ∈ s.fragList t k → o.getID = k ∧ o.type = t
  bound : ∀ t k, s.fragList t k = [] ∨ ((s.fragList t k).length : Int) ≤ cf.crypto.threshold

theorem StorageInv.init : StorageInv cf Storage.init where
  objs := by intro t k o h; simp at h
  payload := by intro k o h; simp [Storage.init] at h
  frags := by intro t k o h; simp at h
  bound := by intro t k; simp

theorem StorageInv.step {s : GState} {f : Frame} {s' : Storage} (h : StorageInv cf s.storage) (hs : SStep cf s f s') :
    StorageInv cf s' := by
  cases hs with
  | same => exact h
  | payload n g hv ht hn =>
    refine ⟨?_, ?_, ?_, ?_⟩
    · intro t k o ho; exact h.objs t k o (by cases t <;> exact ho)
    · intro k o ho
      rw [GoMap.get_set] at ho
      split at ho
      · rename_i e; cases ho; exact ⟨e.symm, ht, hv⟩
      · exact h.payload k o ho
    · intro t k o ho; exact h.frags t k o (by cases t <;> exact ho)
    · intro t k; have := h.bound t k; cases t <;> exact this
  | put g hv ht hd =>
    refine ⟨?_, ?_, ?_, ?_⟩
    · intro t k o ho
      by_cases e : t = g.type
      · subst e
        rw [Storage.objs_putObj_same _ _ _ _ ht, GoMap.get_set] at ho
        split at ho
        · rename_i e; cases ho; exact ⟨e.symm, rfl, hv⟩
        · exact h.objs _ k o ho
      · rw [Storage.objs_putObj_ne _ _ _ e] at ho; exact h.objs t k o ho
    · intro k o ho; simp at ho; exact h.payload k o ho
    · intro t k o ho; simp at ho; exact h.frags t k o ho
    · intro t k; simp only [Storage.fragList_putObj]; exact h.bound t k
  | frag g ht hl =>
    refine ⟨?_, ?_, ?_, ?_⟩
    · intro t k o ho; simp at ho; exact h.objs t k o ho
    · intro k o ho; simp at ho; exact h.payload k o ho
    · intro t k o ho
      by_cases e : t = g.type ∧ k = g.getID
      · obtain ⟨rfl, rfl⟩ := e
        rw [Storage.fragList_appendFrag_same _ _ _ _ ht] at ho
        rcases List.mem_append.1 ho with ho | ho
        · exact h.frags _ _ o ho
        · simp at ho; subst ho; exact ⟨rfl, rfl⟩
      · have e' : t ≠ g.type ∨ k ≠ g.getID := by by_cases h1 : t = g.type <;> simp_all
        rw [Storage.fragList_appendFrag_ne _ _ e'] at ho
        exact h.frags t k o ho
    · intro t k
      by_cases e : t = g.type ∧ k = g.getID
      · obtain ⟨rfl, rfl⟩ := e
        rw [Storage.fragList_appendFrag_same _ _ _ _ ht]
        right; simp only [List.length_append, List.length_cons, List.length_nil]; omega
      · have e' : t ≠ g.type ∨ k ≠ g.getID := by by_cases h1 : t = g.type <;> simp_all
        rw [Storage.fragList_appendFrag_ne _ _ e']
        exact h.bound t k
  | wipe =>
    refine ⟨?_, ?_, ?_, ?_⟩
    · intro t k o ho
      cases t <;> first | exact h.objs _ k o ho | (simp [Storage.objs, Storage.init] at ho)
    · intro k o ho; simp [Storage.init] at ho
    · intro t k o ho; cases t <;> simp [Storage.fragList, Storage.frags, Storage.init] at ho
    · intro t k; left; cases t <;> rfl

/-- At some earlier moment of the history the object was in the store under its own identity. -/
def WasStored (h : History) (g : GossipObj) : Prop :=
  ∃ h1 h2, h = h1 ++ h2 ∧ ((stateOf cf h1).g.storage.objs g.type).get g.getID = some g

theorem WasStored.mono {h : History} {g : GossipObj} (w : WasStored cf h g) (e : Clock × CEvent) :
    WasStored cf (h ++ [e]) g := by
  obtain ⟨h1, h2, rfl, w⟩ := w
  exact ⟨h1, h2 ++ [e], by simp, w⟩

/-- Verified and stored earlier. -/
def Vouched (h : History) (g : GossipObj) : Prop := g.verify cf.crypto = .ok ∧ WasStored cf h g

theorem Vouched.mono {h : History} {g : GossipObj} (w : Vouched cf h g) (e : Clock × CEvent) :
    Vouched cf (h ++ [e]) g := ⟨w.1, w.2.mono cf e⟩

/-- Frames reached only after a successful store. -/
def Frame.post (h : History) : Frame → Prop
  | .storeBl g | .storeNote g | .arm g | .signBlk g | .sign g => Vouched cf h g
  | _ => True

/-- The fact a blacklist entry rests on. -/
def Evidence (h : History) (x : Str) : Prop :=
  ∃ g, (g.type = .CON_INIT ∨ g.type = .ACC_FULL) ∧ g.payload.p0 = x ∧ Vouched cf h g

/-- The fact a signature rests on. -/
def SignedOK (h : History) (f : GossipObj) : Prop :=
  ∃ g, g.type.isInit = true ∧ generateFRAG cf g = some f ∧ Vouched cf h g

/-- Shared-state part of the main invariant. -/
structure MainInv (h : History) (s : GState) : Prop where
  storage : StorageInv cf s.storage
  timers : ∀ g ∈ s.timers, (g.type = .STH_INIT ∨ g.type = .REV_INIT) ∧ Vouched cf h g
  blacklist : ∀ x, s.blacklist.has x = true → Evidence cf h x
  signed : ∀ f, .signed f ∈ s.out → SignedOK cf h f

theorem stateOf_run {h : History} {clk : Clock} {i : Nat} {f : Frame}
    (hcr : (stateOf cf h).g.crashed = false)
    (ht : ∃ t, (stateOf cf h).threads[i]? = some t ∧ t.frames.head? = some f) :
    (stateOf cf (h ++ [(clk, .run i)])).g.storage = (stepFrame cf clk (stateOf cf h).g f).1.storage := by
  obtain ⟨t, h1, h2⟩ := ht
  rw [stateOf_snoc]
  unfold cstep
  rw [hcr]
  simp only [Bool.false_eq_true, if_false, h1, stepThread]
  cases hf : t.frames with
  | nil => rw [hf] at h2; simp at h2
  | cons f' fs =>
    rw [hf] at h2; simp at h2; subst h2
    simp only
    rcases stepFrame cf clk (stateOf cf h).g f' with ⟨s', new⟩
    cases new with
    | some new => rfl
    | none => simp only; split <;> rfl

@[simp] theorem out_storeLocked (s : GState) (g : GossipObj) : (storeLocked s g).1.out = s.out := by
  unfold storeLocked; split <;> (try split) <;> rfl

@[simp] theorem out_addBlacklist (s : GState) (x : Str) : (addBlacklist s x).out = s.out := by
  unfold addBlacklist; split <;> rfl

@[simp] theorem out_storeBlacklist (s : GState) (g : GossipObj) : (storeBlacklist s g).out = s.out := by
  unfold storeBlacklist; split <;> simp

@[simp] theorem out_storeNote (clk : Clock) (s : GState) (g : GossipObj) : (storeNote cf clk s g).out = s.out := by
  unfold storeNote noteInitConverge; split <;> (try split) <;> rfl

@[simp] theorem out_noteConverge (clk : Clock) (s : GState) : (noteConverge cf clk s).out = s.out := by
  unfold noteConverge; split <;> rfl

@[simp] theorem out_readAndStore (s : GState) (g : GossipObj) : (readAndStore cf s g).1.out = s.out := by
  unfold readAndStore; split <;> (try dsimp only) <;> (try split) <;> rfl

/-- What one atomic action can append to the output trace. -/
inductive OStep (clk : Clock) (s : GState) : Frame → List Out → Prop
  | none (f) : OStep clk s f []
  | signed (g f) : generateFRAG cf g = some f → OStep clk s (.sign g) [.signed f]
  | full (g o) : generateFULL cf clk (getObjectList s g.getID g.type) g.getTargetType = some o →
      OStep clk s (.fragGen g) [.generatedFull g.getID o]
  | owner (g) : OStep clk s (.sendOwner g) [.owner g]
  | announce (g) : (cf.jsonLen g : Int) > cf.optThreshold → g.type = .REV_INIT →
      OStep clk s (.sendPeers g)
        (cf.connected.map fun u => .peer u (go!"/gossip/new_payload_notification") (.notif (notificationOf cf g)))
  | forward (g g') : g' = (if (cf.jsonLen g : Int) > cf.optThreshold ∧ g.type = .REV_FRAG then removePayload g else g) →
      ¬ ((cf.jsonLen g : Int) > cf.optThreshold ∧ g.type = .REV_INIT) →
      OStep clk s (.sendPeers g) (cf.connected.map fun u => .peer u (endpointOf g.type) (.obj g'))
  | ask (n x) : OStep clk s (.notify n x)
      [.peer x.sender (go!"/gossip/new_payload_request") (.notif { x with sender := cf.crypto.selfID })]
  | answer (n x o) : o = getREVrequested s { period := x.period, type := x.type, entity := x.entity } →
      o.payload.p0 ≠ [] → OStep clk s (.request n x) [.peer x.sender (go!"/gossip/rev_init") (.obj o)]

theorem stepFrame_out (clk : Clock) (s : GState) (f : Frame) :
    ∃ o, OStep cf clk s f o ∧ (stepFrame cf clk s f).1.out = s.out ++ o := by
  have same : ∀ {f s'}, s'.out = s.out → ∃ o, OStep cf clk s f o ∧ (s' : GState).out = s.out ++ o :=
    fun h => ⟨[], .none _, by simp [h]⟩
  cases f with
  | recv n g =>
    apply same
    have key : (stepFrame cf clk s (.recv n g)).1 = (if n > cf.optThreshold ∧ g.type = .REV_INIT
        then savePayload cf { s with trafficReceived := s.trafficReceived + n } g
        else ({ s with trafficReceived := s.trafficReceived + n }, true)).1 := by
      simp only [stepFrame]
      split <;> (rename_i h; rw [h])
    rw [key]
    split
    · rcases savePayload_eq cf { s with trafficReceived := s.trafficReceived + n } g with h | ⟨h1, h2⟩
      · rw [h]
      · rw [h2]
    · rfl
  | store g =>
    apply same
    unfold stepFrame
    simp only
    cases hv : g.verify cf.crypto with
    | panic => rfl
    | err e => rfl
    | ok =>
      simp only
      have := out_storeLocked { s with timerlist := s.timerlist ++ [clk.second] } g
      split <;> (rename_i h; rw [h] at this; exact this)
  | storeBl g => apply same; simp [stepFrame]
  | storeNote g => apply same; simp [stepFrame]
  | sendPeers g =>
    simp only [stepFrame, sendToGossipers]
    split
    · rename_i h; exact ⟨_, .announce g h.1 h.2, rfl⟩
    · rename_i h; exact ⟨_, .forward g _ rfl h, rfl⟩
  | sendOwner g => exact ⟨_, .owner g, rfl⟩
  | sign g =>
    unfold stepFrame signStatement
    simp only
    cases hg : generateFRAG cf g with
    | none => exact same rfl
    | some f => exact ⟨_, .signed g f hg, rfl⟩
  | fragStore g => apply same; simp [stepFrame]
  | fragGen g =>
    unfold stepFrame
    simp only
    cases hg : generateFULL cf clk (getObjectList s g.getID g.type) g.getTargetType with
    | none => exact same rfl
    | some o => exact ⟨_, .full g o hg, rfl⟩
  | fullNote => apply same; simp [stepFrame]
  | notify n x =>
    simp only [stepFrame, notificationHandler]
    split
    · exact ⟨_, .ask n x, rfl⟩
    · exact same rfl
  | request n x =>
    simp only [stepFrame, requestHandler]
    split
    · rename_i h; exact ⟨_, .answer n x _ rfl h, rfl⟩
    · exact same rfl
  | save => apply same; simp only [stepFrame, save]; split <;> rfl
  | _ => exact same rfl

theorem mainInv : HInv cf (MainInv cf) (fun h _ f => f.wt ∧ f.post cf h) where
  init := ⟨StorageInv.init cf, by simp [GState.init], by simp [GState.init], by simp [GState.init]⟩
  step := by
    intro h clk i s f hs hcr hq hf ht
    subst hs
    have hsto := stateOf_run cf (clk := clk) hcr ht
    intro r h'
    have hS := stepFrame_storage cf clk (stateOf cf h).g f hf.1
    have mono : ∀ g, Vouched cf h g → Vouched cf h' g := fun g v => v.mono cf _
    refine ⟨⟨hq.storage.step cf hS, ?_, ?_, ?_⟩, ?_, ?_⟩
    · intro g hg
      rcases stepFrame_timers cf clk (stateOf cf h).g f with h1 | ⟨g', rfl, h1⟩
      · rw [h1] at hg; exact ⟨(hq.timers g hg).1, mono _ (hq.timers g hg).2⟩
      · rw [h1] at hg
        rcases List.mem_append.1 hg with hg | hg
        · exact ⟨(hq.timers g hg).1, mono _ (hq.timers g hg).2⟩
        · simp at hg; subst hg; exact ⟨hf.1, mono _ hf.2⟩
    · intro x hx
      have old : (stateOf cf h).g.blacklist.has x = true → Evidence cf h' x := fun hb => by
        obtain ⟨g, a, b, c⟩ := hq.blacklist x hb; exact ⟨g, a, b, mono g c⟩
      rcases stepFrame_blacklist cf clk (stateOf cf h).g f with h1 | ⟨g, rfl, htp, h1⟩
      · rw [h1] at hx; exact old hx
      · rw [h1] at hx
        unfold addBlacklist at hx
        split at hx
        · exact old hx
        · rw [GoMap.has_set] at hx
          simp only [Bool.or_eq_true, decide_eq_true_eq] at hx
          rcases hx with rfl | hx
          · exact ⟨g, htp, rfl, mono g hf.2⟩
          · exact old hx
    · intro f' hf'
      obtain ⟨o, ho, he⟩ := stepFrame_out cf clk (stateOf cf h).g f
      rw [he] at hf'
      rcases List.mem_append.1 hf' with h1 | h1
      · obtain ⟨g, a, b, c⟩ := hq.signed f' h1; exact ⟨g, a, b, mono g c⟩
      · cases ho with
        | signed g f'' hg => simp at h1; subst h1; exact ⟨g, hf.1, hg, mono g hf.2⟩
        | _ => simp at h1
    · intro f' hf'
      refine ⟨hf'.1, ?_⟩
      cases f' <;> first | exact mono _ hf'.2 | trivial
    · intro new hnew f' hf'
      refine ⟨wt_new cf clk _ f hf.1 new hnew f' hf', ?_⟩
      cases f with
      | store g =>
        simp only [r] at hnew
        unfold stepFrame at hnew hsto
        simp only at hnew hsto
        cases hv : g.verify cf.crypto with
        | panic => rw [hv] at hnew; cases hnew
        | err e =>
          rw [hv] at hnew; simp at hnew; subst hnew
          unfold afterStore at hf'
          cases ht : g.type <;> simp [ht] at hf' <;> (try (rcases hf' with rfl | rfl)) <;> trivial
        | ok =>
          rw [hv] at hnew hsto
          simp only at hnew hsto
          rcases hl : storeLocked { (stateOf cf h).g with timerlist := (stateOf cf h).g.timerlist ++ [clk.second] } g
            with ⟨s1, b⟩
          rw [hl] at hnew hsto
          rcases storage_storeLocked hf.1 hl with ⟨rfl, rfl, _⟩ | ⟨rfl, rfl, hd⟩
          · simp at hnew; subst hnew
            unfold afterStore at hf'
            cases ht : g.type <;> simp [ht] at hf' <;> (try (rcases hf' with rfl | rfl)) <;> trivial
          · simp at hnew; subst hnew
            simp at hf'; subst hf'
            refine ⟨hv, h', [], by simp, ?_⟩
            simp only [h']
            rw [hsto]
            simp only
            rw [Storage.objs_putObj_same _ _ _ _ hf.1]
            simp
      | storeBl g => simp [r, stepFrame] at hnew; subst hnew; simp at hf'; subst hf'; exact mono g hf.2
      | storeNote g =>
        simp [r, stepFrame] at hnew; subst hnew
        have hv := mono g hf.2
        unfold afterStore at hf'
        cases ht : g.type <;> simp [ht] at hf' <;> (try (rcases hf' with rfl | rfl | rfl)) <;>
          (try (rcases hf' with rfl | rfl)) <;> (try subst hf') <;> first | trivial | exact hv
      | signBlk g =>
        simp [r, stepFrame] at hnew; subst hnew
        split at hf'
        · simp at hf'
        · simp at hf'; subst hf'; exact mono g hf.2
      | recv n g =>
        simp only [r, stepFrame] at hnew
        split at hnew <;> simp at hnew
        subst hnew; simp at hf'; subst hf'; trivial
      | blk g =>
        simp [r, stepFrame] at hnew; subst hnew
        split at hf'
        · simp at hf'
        · cases ht : g.type <;> simp [ht] at hf' <;> subst hf' <;> trivial
      | sign g =>
        simp only [r, stepFrame] at hnew
        split at hnew
        · cases hnew
        · simp at hnew; subst hnew; simp at hf'; subst hf'; trivial
      | initFrag g =>
        simp [r, stepFrame] at hnew; subst hnew
        split at hf'
        · simp at hf'
        · cases ht : g.type <;> simp [ht] at hf' <;> subst hf' <;> trivial
      | fragStore g =>
        simp only [r, stepFrame, Option.some.injEq] at hnew; subst hnew
        rcases List.mem_append.1 hf' with h1 | h1 <;> split at h1 <;> simp at h1 <;> subst h1 <;> trivial
      | fragGen g =>
        simp only [r, stepFrame] at hnew
        split at hnew
        · cases hnew
        · simp at hnew; subst hnew; simp at hf'; subst hf'; trivial
      | _ =>
        simp [r, stepFrame] at hnew; subst hnew
        first
          | (simp at hf'; done)
          | (simp at hf'; subst hf'; trivial)
          | (split at hf' <;> simp at hf' <;> subst hf' <;> trivial)
  crash := by
    intro h s hq
    exact ⟨⟨hq.storage, hq.timers, hq.blacklist, hq.signed⟩, fun f hf => hf⟩
  idle := by
    intro h e s hq
    refine ⟨⟨hq.storage, fun g hg => ⟨(hq.timers g hg).1, (hq.timers g hg).2.mono cf e⟩, ?_, ?_⟩, ?_⟩
    · intro x hx; obtain ⟨g, a, b, c⟩ := hq.blacklist x hx; exact ⟨g, a, b, c.mono cf e⟩
    · intro f hf; obtain ⟨g, a, b, c⟩ := hq.signed f hf; exact ⟨g, a, b, c.mono cf e⟩
    · intro f hf
      refine ⟨hf.1, ?_⟩
      cases f <;> first | exact Vouched.mono cf hf.2 e | trivial
  spawnRecv := fun _ _ _ _ _ _ => ⟨trivial, trivial⟩
  spawn := by
    intro h s hq
    exact ⟨fun n x => ⟨trivial, trivial⟩, fun n x => ⟨trivial, trivial⟩,
      ⟨trivial, trivial⟩, ⟨trivial, trivial⟩⟩
  fire := by
    intro h s i o hq ho
    have hm : o ∈ s.timers := List.mem_of_getElem? ho
    refine ⟨⟨hq.storage, fun g hg => hq.timers g (List.mem_of_mem_eraseIdx hg), hq.blacklist, hq.signed⟩, ?_, fun f hf => hf⟩
    refine ⟨?_, (hq.timers o hm).2⟩
    rcases (hq.timers o hm).1 with h | h <;> simp [Frame.wt, h, GType.isInit]

end CTng
