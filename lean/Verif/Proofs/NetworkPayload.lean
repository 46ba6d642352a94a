import Verif.Proofs.NetworkSplit
/- Large revocation updates on their way through one gossiper: the payload cache, notifications and requests. -/
set_option autoImplicit false

namespace CTng
variable {L : Lib} {cf : GConf L}

/-- The object a program point is about, from its arrival until it is passed on. -/
def Frame.obj : Frame → Option GossipObj
  | .recv _ g | .recon g | .handle g | .blk g | .initFull g | .initFrag g | .initMal g | .initCon g | .store g | .storeBl g
  | .storeNote g | .sendPeers g | .conCount g | .fragFull g | .fragStore g | .fragGen g | .fullBlk g | .fullCount g => some g
  | .sendOwner _ | .arm _ | .signBlk _ | .sign _ | .fullNote | .notify _ _ | .request _ _ | .save | .wipe => none

theorem afterStore_obj {g : GossipObj} {b : Bool} {f : Frame} (h : f ∈ afterStore g b) : f.obj = some g ∨ f.obj = none := by
  unfold afterStore at h
  split at h <;> (try split at h) <;> simp at h <;> (try (rcases h with rfl | rfl | rfl)) <;> (try (rcases h with rfl | rfl)) <;>
    (try subst h) <;> simp [Frame.obj]

theorem afterStore_recv {g : GossipObj} {b : Bool} {n : Int} {o : GossipObj} : Frame.recv n o ∉ afterStore g b := by
  unfold afterStore
  intro h
  split at h <;> (try split at h) <;> simp at h

/-- New program points about a revocation update are about the one of the executed program point, and are past its arrival. -/
theorem rev_new (clk : Clock) (s : GState) (f : Frame) (hwt : f.wt) (o : GossipObj) (ht : o.type = .REV_INIT) (new : List Frame)
    (h : (stepFrame cf clk s f).2 = some new) (f' : Frame) (hm : f' ∈ new) (hc : f'.obj = some o) :
    f.obj = some o ∧ ∀ n, f' ≠ .recv n o := by
  have aft : ∀ {g b}, f' ∈ afterStore g b → g = o ∧ ∀ n, f' ≠ .recv n o := by
    intro g b h1
    refine ⟨?_, fun n h2 => afterStore_recv (h2 ▸ h1)⟩
    rcases afterStore_obj h1 with h2 | h2
    · rw [hc] at h2; exact (Option.some.inj h2).symm
    · rw [hc] at h2; cases h2
  cases f with
  | recv n g =>
    simp only [stepFrame] at h
    split at h <;> simp at h
    subst h; simp at hm; subst hm; simp [Frame.obj] at hc ⊢; exact hc
  | recon g =>
    simp only [stepFrame, Option.some.injEq] at h; subst h
    simp at hm; subst hm
    simp [Frame.obj] at hc ⊢
    split at hc
    · rename_i hr; rw [← hc] at ht; simp [reconstructPayload, hr.2] at ht
    · exact hc
  | initCon g =>
    simp only [stepFrame, Option.some.injEq] at h; subst h
    simp at hm; subst hm; simp [Frame.obj] at hc; subst hc; cases ht
  | store g =>
    simp only [stepFrame] at h
    split at h
    · cases h
    · simp at h; subst h; obtain ⟨rfl, h2⟩ := aft hm; exact ⟨rfl, h2⟩
    · split at h
      · simp at h; subst h; obtain ⟨rfl, h2⟩ := aft hm; exact ⟨rfl, h2⟩
      · simp at h; subst h; simp at hm; subst hm; exact ⟨hc, by simp⟩
  | storeNote g =>
    simp only [stepFrame, Option.some.injEq] at h; subst h; obtain ⟨rfl, h2⟩ := aft hm; exact ⟨rfl, h2⟩
  | sign g =>
    simp only [stepFrame] at h
    split at h
    · cases h
    · rename_i s1 f1 hs
      simp at h; subst h; simp at hm; subst hm; simp [Frame.obj] at hc
      subst hc
      exfalso
      unfold signStatement at hs
      cases hg : generateFRAG cf g with
      | none => rw [hg] at hs; cases hs
      | some x =>
        rw [hg] at hs; simp at hs
        have : x.type ≠ .REV_INIT := by
          unfold generateFRAG at hg
          split at hg
          · cases hg
          · cases hg
            simp only
            cases hty : g.type <;> simp
        rw [hs.2] at this; exact absurd ht this
  | fragGen g =>
    simp only [stepFrame] at h
    split at h
    · cases h
    · rename_i x hx
      simp at h; subst h; simp at hm; subst hm; simp [Frame.obj] at hc
      subst hc
      have h1 := generateFULL_type hx
      have h2 := getTargetType_isFull (g := g) hwt
      rw [← h1, ht] at h2; cases h2
  | blk g =>
    simp only [stepFrame, Option.some.injEq] at h; subst h
    split at hm
    · cases hm
    · split at hm <;> simp at hm <;> subst hm <;> exact ⟨hc, by simp⟩
  | initFrag g =>
    simp only [stepFrame, Option.some.injEq] at h; subst h
    split at hm
    · cases hm
    · split at hm <;> simp at hm <;> subst hm <;> exact ⟨hc, by simp⟩
  | fragStore g =>
    simp only [stepFrame, Option.some.injEq] at h; subst h
    rcases List.mem_append.1 hm with h1 | h1 <;> split at h1 <;> simp at h1 <;> subst h1 <;> exact ⟨hc, by simp⟩
  | fullCount g =>
    simp only [stepFrame, Option.some.injEq] at h; subst h
    split at hm <;> simp at hm <;> subst hm <;> first | exact ⟨hc, by simp⟩ | cases hc
  | handle g =>
    simp only [stepFrame, Option.some.injEq] at h; subst h
    split at hm <;> simp at hm; subst hm; exact ⟨hc, by simp⟩
  | initFull g =>
    simp only [stepFrame, Option.some.injEq] at h; subst h
    split at hm <;> simp at hm; subst hm; exact ⟨hc, by simp⟩
  | initMal g =>
    simp only [stepFrame, Option.some.injEq] at h; subst h
    split at hm <;> simp at hm <;> subst hm <;> exact ⟨hc, by simp⟩
  | storeBl g =>
    simp only [stepFrame, Option.some.injEq] at h; subst h
    simp at hm; subst hm; exact ⟨hc, by simp⟩
  | signBlk g =>
    simp only [stepFrame, Option.some.injEq] at h; subst h
    split at hm <;> simp at hm; subst hm; cases hc
  | conCount g =>
    simp only [stepFrame, Option.some.injEq] at h; subst h
    split at hm <;> simp at hm; subst hm; exact ⟨hc, by simp⟩
  | fragFull g =>
    simp only [stepFrame, Option.some.injEq] at h; subst h
    split at hm <;> simp at hm; subst hm; exact ⟨hc, by simp⟩
  | fullBlk g =>
    simp only [stepFrame, Option.some.injEq] at h; subst h
    split at hm <;> simp at hm; subst hm; exact ⟨hc, by simp⟩
  | _ => simp only [stepFrame, Option.some.injEq] at h; subst h; cases hm

/-- An object on a goroutine was there before, has just been delivered, or was put there by the executed program point. -/
theorem cstep_start (c : CState) (e : Clock × CEvent) (f : Frame) (o : GossipObj) (ho : f.obj = some o)
    (h : HasFrame (cstep cf c e) f) :
    HasFrame c f ∨ (∃ n, e.2 = .recv n o ∧ f = .recv n o) ∨
    ∃ a new, HasFrame c a ∧ (stepFrame cf e.1 c.g a).2 = some new ∧ f ∈ new ∧
      (cstep cf c e).g.storage = (stepFrame cf e.1 c.g a).1.storage := by
  obtain ⟨clk, ev⟩ := e
  have hap : ∀ (g : GState) (fs : List Frame) (b : Bool), HasFrame ⟨g, c.threads ++ [⟨fs, b⟩]⟩ f → HasFrame c f ∨ f ∈ fs := by
    rintro g fs b ⟨t, ht, hf⟩
    rcases List.mem_append.1 ht with ht | ht
    · exact .inl ⟨t, ht, hf⟩
    · simp at ht; subst ht; exact .inr hf
  unfold cstep at h ⊢
  split at h
  · exact .inl h
  rename_i hcr
  rw [if_neg hcr]
  cases ev with
  | recv n g =>
    rcases hap _ _ _ h with h | h
    · exact .inl h
    · simp at h; subst h; cases ho; exact .inr (.inl ⟨n, rfl, rfl⟩)
  | notify n g =>
    rcases hap _ _ _ h with h | h
    · exact .inl h
    · simp at h; subst h; cases ho
  | request n g =>
    rcases hap _ _ _ h with h | h
    · exact .inl h
    · simp at h; subst h; cases ho
  | periodic =>
    rcases hap _ _ _ h with h | h
    · exact .inl h
    · simp at h; rcases h with rfl | rfl <;> cases ho
  | fire i =>
    simp only at h
    cases hti : c.g.timers[i]? with
    | none => rw [hti] at h; exact .inl h
    | some g =>
      rw [hti] at h
      rcases hap _ _ _ h with h | h
      · exact .inl h
      · simp at h; subst h; cases ho
  | run i =>
    simp only at h ⊢
    cases hti : c.threads[i]? with
    | none => rw [hti] at h; exact .inl h
    | some t =>
      rw [hti] at h
      have htm := List.mem_of_getElem? hti
      obtain ⟨u, hu, hf⟩ := h
      simp only at hu ⊢
      rcases List.mem_or_eq_of_mem_set hu with h1 | h1
      · exact .inl ⟨u, h1, hf⟩
      · subst h1
        simp only [stepThread] at hf
        cases hfr : t.frames with
        | nil => rw [hfr] at hf; simp only at hf; rw [hfr] at hf; cases hf
        | cons a l =>
          rw [hfr] at hf
          have hat : HasFrame c a := ⟨t, htm, by rw [hfr]; exact List.mem_cons_self⟩
          rcases hst : stepFrame cf clk c.g a with ⟨s', new⟩
          simp only [hst] at hf
          cases new with
          | none => cases hf
          | some new =>
            simp only at hf
            rcases List.mem_append.1 hf with h2 | h2
            · exact .inr (.inr ⟨a, new, hat, by rw [hst], h2, by simp only [stepThread, hfr, hst]⟩)
            · exact .inl ⟨t, htm, by rw [hfr]; exact List.mem_cons_of_mem _ h2⟩

/-- A revocation update that a gossiper posts was about to be sent or is in its payload cache. -/
theorem cstep_post_rev (c : CState) (hs : Sound cf c) (e : Clock × CEvent) (m : Msg) (o : GossipObj) (ht : o.type = .REV_INIT)
    (hm : m ∈ postsOf ((cstep cf c e).g.out.drop c.g.out.length)) (hb : m.body = .obj o) :
    c.g.crashed = false ∧ (Pending c (.sendPeers o) ∨ c.g.storage.revPayload.get o.getID = some o) := by
  obtain ⟨clk, ev⟩ := e
  have hno : ∀ s' : GState, s'.out = c.g.out → m ∉ postsOf (s'.out.drop c.g.out.length) := by
    intro s' h1; rw [h1]; simp [postsOf]
  unfold cstep at hm
  split at hm
  · exact absurd hm (hno _ rfl)
  rename_i hcr
  refine ⟨by simpa using hcr, ?_⟩
  cases ev with
  | recv n g => exact absurd hm (hno _ rfl)
  | notify n g => exact absurd hm (hno _ rfl)
  | request n g => exact absurd hm (hno _ rfl)
  | periodic => exact absurd hm (hno _ rfl)
  | fire i =>
    simp only at hm
    cases hti : c.g.timers[i]? with
    | none => rw [hti] at hm; exact absurd hm (hno _ rfl)
    | some g => rw [hti] at hm; exact absurd hm (hno _ rfl)
  | run i =>
    simp only at hm
    cases hti : c.threads[i]? with
    | none => rw [hti] at hm; exact absurd hm (hno _ rfl)
    | some t =>
      rw [hti] at hm
      simp only [stepThread] at hm
      cases hfr : t.frames with
      | nil => rw [hfr] at hm; exact absurd hm (hno _ rfl)
      | cons a l =>
        rw [hfr] at hm
        obtain ⟨out, hO, ho⟩ := stepFrame_out cf clk c.g a
        have key : m ∈ postsOf out := by
          rcases hst : stepFrame cf clk c.g a with ⟨s', new⟩
          rw [hst] at ho
          simp only [hst] at hm
          have h1 : ∀ g : GState, g.out = s'.out → m ∈ postsOf (g.out.drop c.g.out.length) → m ∈ postsOf out := by
            intro g h1 h2; rw [h1, ho, List.drop_left] at h2; exact h2
          cases new with
          | some new => exact h1 _ rfl hm
          | none =>
            simp only at hm
            split at hm <;> exact h1 _ rfl hm
        have hpa : a = .sendPeers o → Pending c (.sendPeers o) := by
          rintro rfl; exact ⟨t, List.mem_of_getElem? hti, by rw [hfr]; rfl⟩
        unfold postsOf at key
        obtain ⟨x, hx, hxm⟩ := List.mem_filterMap.1 key
        cases hO with
        | none => cases hx
        | signed g f _ => simp at hx; subst hx; cases hxm
        | full g f _ => simp at hx; subst hx; cases hxm
        | owner g => simp at hx; subst hx; cases hxm
        | announce g _ _ =>
          obtain ⟨u, _, rfl⟩ := List.mem_map.1 hx
          simp at hxm; subst hxm; cases hb
        | forward g g' hg' _ =>
          obtain ⟨u, _, rfl⟩ := List.mem_map.1 hx
          simp at hxm; subst hxm
          simp at hb; subst hb
          split at hg'
          · rename_i hr; rw [hg'] at ht; simp [removePayload, hr.2] at ht
          · exact .inl (hpa (by rw [hg']))
        | ask n y => simp at hx; subst hx; simp at hxm; subst hxm; cases hb
        | answer n y g hg hne =>
          simp at hx; subst hx; simp at hxm; subst hxm
          simp at hb; subst hb
          right
          unfold getREVrequested at hg
          cases hgg : c.g.storage.revPayload.get { period := y.period, type := .REV_INIT, entity := y.entity : GossipID } with
          | none => rw [hgg] at hg; rw [hg] at hne; exact absurd rfl hne
          | some v =>
            rw [hgg] at hg
            simp at hg
            have := (hs.storage.payload _ _ hgg).1
            rw [hg, this]; exact hgg

/-- A large revocation update for the key can be handed out on request. -/
def Cached (c : CState) (k : GossipID) : Prop := c.g.storage.revPayload.has k = true

/-- Bookkeeping about the payload cache for one key. -/
structure PayInv (cf : GConf L) (c : CState) (k : GossipID) : Prop where
  signed : ∀ f o, HasFrame c f → f.obj = some o → o.getID = k → o.signer ≠ []
  cache : ∀ o, c.g.storage.revPayload.get k = some o → o.signer ≠ []
  large : ∀ f o, HasFrame c f → f.obj = some o → o.getID = k → o.verify cf.crypto = .ok →
    (cf.jsonLen o : Int) > cf.optThreshold → (∃ n, f = .recv n o ∧ n > cf.optThreshold) ∨ Cached c k
  learns : Cached c k → Settled c k ∨ ∃ o, Carrier cf k o ∧ ∃ f, Learns o f ∧ Pending c f

section
variable {c c' : CState} {k : GossipID}

theorem Cached.act (hs : Sound cf c) (hw : ¬ HasFrame c .wipe) (ha : Act cf c c') (h : Cached c k) : Cached c' k := by
  cases ha with
  | idle h1 _ _ _ _ => unfold Cached; rw [h1]; exact h
  | exec clk f hp hg _ _ _ =>
    have hS := stepFrame_storage cf clk c.g f (hs.wt f hp.has)
    unfold Cached at h ⊢; rw [hg]
    generalize (stepFrame cf clk c.g f).1.storage = st at hS ⊢
    cases hS with
    | same => exact h
    | payload n g _ _ _ => simp [GoMap.has_set, h]
    | put g _ _ _ => simpa using h
    | frag g _ _ => simpa using h
    | wipe => exact absurd hp.has hw

/-- What is newly in the payload cache has just arrived. -/
theorem cache_act (hs : Sound cf c) (ha : Act cf c c') {o : GossipObj} (h : c'.g.storage.revPayload.get k = some o) :
    c.g.storage.revPayload.get k = some o ∨
    ∃ n, Pending c (.recv n o) ∧ o.getID = k ∧ o.verify cf.crypto = .ok ∧ Pending c' (.recon o) := by
  cases ha with
  | idle h1 _ _ _ _ => rw [h1] at h; exact .inl h
  | exec clk f hp hg _ next _ =>
    have hS := stepFrame_storage cf clk c.g f (hs.wt f hp.has)
    rw [hg] at h
    generalize hst : (stepFrame cf clk c.g f).1.storage = st at hS h
    cases hS with
    | same => exact .inl h
    | payload n g hv ht hn =>
      simp only [GoMap.get_set] at h
      split at h
      · rename_i e
        cases h
        refine .inr ⟨n, hp, e.symm, hv, next [.recon o] _ ?_ rfl⟩
        simp only [stepFrame]
        rw [if_pos ⟨hn, ht⟩]
        simp only [savePayload, hv]
      · exact .inl h
    | put g _ _ _ => simp at h; exact .inl h
    | frag g _ _ => simp at h; exact .inl h
    | wipe => simp [Storage.init] at h

theorem PayInv.step (hs : Sound cf c) (hi : NodeInv cf c k) (hP : PayInv cf c k) (hth : 0 < cf.crypto.threshold)
    (hk : k.type = .REV_INIT) (e : Clock × CEvent) (hup : (cstep cf c e).g.crashed = false)
    (he : ∀ n o, e.2 = .recv n o → o.getID = k → o.signer ≠ [] ∧ ((cf.jsonLen o : Int) > cf.optThreshold → n > cf.optThreshold)) :
    PayInv cf (cstep cf c e) k := by
  have ha := cstep_act cf c e hup
  have hw : ¬ HasFrame c .wipe := hi.noWipe.resolve_left (by rw [hk]; simp)
  have hty : ∀ {o : GossipObj}, o.getID = k → o.type = .REV_INIT := fun h => (congrArg GossipID.type h).trans hk
  refine ⟨?_, ?_, ?_, ?_⟩
  · intro f o hf ho hid
    rcases cstep_start c e f o ho hf with h | ⟨n, h, _⟩ | ⟨a, new, h1, h2, h3, h4⟩
    · exact hP.signed f o h ho hid
    · exact (he n o h hid).1
    · exact hP.signed a o h1 (rev_new e.1 c.g a (hs.wt a h1) o (hty hid) new h2 f h3 ho).1 hid
  · intro o ho
    rcases cache_act hs ha ho with h | ⟨n, h, hid, _⟩
    · exact hP.cache o h
    · exact hP.signed _ o h.has rfl hid
  · intro f o hf ho hid hv hl
    rcases cstep_start c e f o ho hf with h | ⟨n, h, h'⟩ | ⟨a, new, h1, h2, h3, h4⟩
    · rcases hP.large f o h ho hid hv hl with h | h
      · exact .inl h
      · exact .inr (h.act hs hw ha)
    · exact .inl ⟨n, h', (he n o h hid).2 hl⟩
    · have ho' := (rev_new e.1 c.g a (hs.wt a h1) o (hty hid) new h2 f h3 ho).1
      rcases hP.large a o h1 ho' hid hv hl with ⟨n, rfl, hn⟩ | h
      · right
        unfold Cached
        rw [h4]
        simp only [stepFrame]
        rw [if_pos ⟨hn, hty hid⟩]
        simp only [savePayload, hv]
        rw [hid]
        simp
      · exact .inr (h.act hs hw ha)
  · intro hc
    obtain ⟨o, ho⟩ := (GoMap.has_iff _ _).1 hc
    have hft : FloodType k.type := .inr (.inr hk)
    rcases cache_act hs ha ho with h | ⟨n, h, hid, hv, hp⟩
    · rcases hP.learns ((GoMap.has_iff _ _).2 ⟨o, h⟩) with h1 | ⟨o1, h1, h2⟩
      · exact .inl (h1.act hs hi.noWipe ha)
      · rcases learn_act hs hi hth hft h1 ha h2 with h3 | h3
        · exact .inl h3
        · exact .inr ⟨o1, h1, h3⟩
    · exact .inr ⟨o, ⟨hid, hv, .inr (hP.signed _ o h.has rfl hid)⟩, .recon o, .inr (.inl rfl), hp⟩

/-- The object is announced to every connected gossiper. -/
def Announced (cf : GConf L) (c c' : CState) (o : GossipObj) : Prop :=
  ∀ u ∈ cf.connected, ⟨u, go!"/gossip/new_payload_notification", .notif (notificationOf cf o)⟩ ∈ postsOf (c'.g.out.drop c.g.out.length)

theorem send_act_rev {o : GossipObj} (ht : o.type = .REV_INIT) (ha : Act cf c c') (h : ∃ f, Sends o f ∧ Pending c f) :
    (∃ f', Sends o f' ∧ Pending c' f') ∨ Posted (cf := cf) c c' o ∨
    ((cf.jsonLen o : Int) > cf.optThreshold ∧ (∃ f, f.obj = some o ∧ (∀ n, f ≠ .recv n o) ∧ HasFrame c f) ∧ Announced cf c c' o) := by
  by_cases hl : (cf.jsonLen o : Int) > cf.optThreshold
  · obtain ⟨f, hf, hp⟩ := h
    cases ha with
    | idle h1 h2 h3 keep rev => exact .inl ⟨f, hf, keep f hp⟩
    | exec clk f0 hp0 hg keep next rev =>
      by_cases e : f = f0
      · subst e
        rcases hf with rfl | rfl | rfl
        · exact .inl ⟨_, .inr (.inl rfl), next [.storeNote o] _ rfl rfl⟩
        · exact .inl ⟨.sendPeers o, .inr (.inr rfl), next (afterStore o true) _ rfl (by simp [afterStore, ht])⟩
        · refine .inr (.inr ⟨hl, ⟨_, rfl, by simp, hp.has⟩, fun u hu => ?_⟩)
          have hout : c'.g.out = c.g.out ++ cf.connected.map fun u =>
              .peer u (go!"/gossip/new_payload_notification") (.notif (notificationOf cf o)) := by
            rw [hg]
            simp only [stepFrame, sendToGossipers]
            rw [if_pos ⟨hl, ht⟩]
          rw [hout, List.drop_left]
          unfold postsOf
          rw [List.mem_filterMap]
          exact ⟨_, List.mem_map.2 ⟨u, hu, rfl⟩, rfl⟩
      · exact .inl ⟨f, hf, keep f e hp⟩
  · rcases send_act (cf := cf) (o := o) (by rw [ht]; exact .inr (.inr rfl)) (fun _ => by omega) ha h with h | h
    · exact .inl h
    · exact .inr (.inl h)

/-- The notification or request is about the key. -/
def Asks (k : GossipID) (x : Notification) : Prop := x.period = k.period ∧ x.entity = k.entity

theorem asks_id {x : Notification} (hk : k.type = .REV_INIT) (h : Asks k x) : (⟨x.period, .REV_INIT, x.entity⟩ : GossipID) = k := by
  obtain ⟨p, t, n⟩ := k
  obtain ⟨h1, h2⟩ := h
  simp only at hk h1 h2
  rw [h1, h2, hk]

theorem notify_act {b : Int} {x : Notification} (hk : k.type = .REV_INIT) (hx : Asks k x) (ha : Act cf c c')
    (h : Pending c (.notify b x)) :
    Pending c' (.notify b x) ∨ Cached c k ∨
    ⟨x.sender, go!"/gossip/new_payload_request", .notif { x with sender := cf.crypto.selfID }⟩ ∈
      postsOf (c'.g.out.drop c.g.out.length) := by
  cases ha with
  | idle h1 h2 h3 keep rev => exact .inl (keep _ h)
  | exec clk f0 hp0 hg keep next rev =>
    by_cases e : .notify b x = f0
    · subst e
      right
      cases hc : searchPayload L c.g { period := x.period, type := x.type, entity := x.entity } x.objhash with
      | true =>
        left
        unfold searchPayload at hc
        simp only at hc
        rw [asks_id hk hx] at hc
        cases hg' : c.g.storage.revPayload.get k with
        | none => rw [hg'] at hc; cases hc
        | some o => exact (GoMap.has_iff _ _).2 ⟨o, hg'⟩
      | false =>
        right
        have hout : c'.g.out = c.g.out ++ [.peer x.sender (go!"/gossip/new_payload_request") (.notif { x with sender := cf.crypto.selfID })] := by
          rw [hg]
          simp only [stepFrame, notificationHandler]
          have : searchPayload L { c.g with trafficReceived := c.g.trafficReceived + b }
              { period := x.period, type := x.type, entity := x.entity } x.objhash = false := hc
          rw [if_pos this]
        rw [hout, List.drop_left]
        simp [postsOf]
    · exact .inl (keep _ e h)

theorem request_act {b : Int} {x : Notification} (hs : Sound cf c) (hk : k.type = .REV_INIT) (hx : Asks k x) (ha : Act cf c c')
    (hc : Cached c k) (h : Pending c (.request b x)) :
    Pending c' (.request b x) ∨
    ∃ o, c.g.storage.revPayload.get k = some o ∧ o.getID = k ∧ o.verify cf.crypto = .ok ∧
      ⟨x.sender, go!"/gossip/rev_init", .obj o⟩ ∈ postsOf (c'.g.out.drop c.g.out.length) := by
  cases ha with
  | idle h1 h2 h3 keep rev => exact .inl (keep _ h)
  | exec clk f0 hp0 hg keep next rev =>
    by_cases e : .request b x = f0
    · subst e
      right
      obtain ⟨o, ho⟩ := (GoMap.has_iff _ _).1 hc
      obtain ⟨hid, hty, hv⟩ := hs.storage.payload k o ho
      refine ⟨o, ho, hid, hv, ?_⟩
      have hne : o.payload.p0 ≠ [] := by
        intro h0; simp [GossipObj.verify, hty, verifyRSAPayload, h0] at hv
      have hget : getREVrequested { c.g with trafficReceived := c.g.trafficReceived + b }
          { period := x.period, type := x.type, entity := x.entity } = o := by
        unfold getREVrequested
        simp only
        rw [asks_id hk hx, ho]; rfl
      have hout : c'.g.out = c.g.out ++ [.peer x.sender (go!"/gossip/rev_init") (.obj o)] := by
        rw [hg]
        simp only [stepFrame, requestHandler]
        rw [hget, if_pos hne]
      rw [hout, List.drop_left]
      simp [postsOf]
    · exact .inl (keep _ e h)

end
end CTng
