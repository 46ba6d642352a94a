import Verif.Proofs.GossiperMain
/- A property of gossip objects that everything a gossiper builds has, holds of everything it stores and sends, if it holds of
everything it receives. -/
set_option autoImplicit false

namespace CTng
variable {L : Lib} (cf : GConf L)

/-- The property `P` of objects and `N` of notifications are kept by what a gossiper builds at clock readings in `K`. -/
structure ObjClosed (P : GossipObj → Prop) (N : Notification → Prop) (K : Clock → Prop) : Prop where
  zero : P .zero
  payload : ∀ g o : GossipObj, g.type = .REV_FRAG → P g → P o → P { g with payload := o.payload }
  remove : ∀ g, g.type = .REV_FRAG → P g → P (removePayload g)
  con : ∀ clk o1 o2, K clk → P o1 → P o2 → P (generateCON clk o1 o2)
  frag : ∀ g f, P g → generateFRAG cf g = some f → P f
  full : ∀ clk gs t o, K clk → (∀ g ∈ gs, P g ∧ g.getTargetType = t) → t.isFull = true → generateFULL cf clk gs t = some o → P o
  notif : ∀ g, P g → N (notificationOf cf g)
  ask : ∀ x, N x → N { x with sender := cf.crypto.selfID }

/-- What the gossiper sends has the property, and goes to a route of its kind. -/
def Out.Has (P : GossipObj → Prop) (N : Notification → Prop) : Out → Prop
  | .peer _ r (.obj o) => P o ∧ (r = endpointOf o.type ∨ r = go!"/gossip/rev_init")
  | .peer _ r (.notif n) => N n ∧ (r = go!"/gossip/new_payload_notification" ∨ r = go!"/gossip/new_payload_request")
  | .owner o => P o
  | .signed o => P o
  | .generatedFull _ o => P o

/-- The objects of a program point have the property. -/
def Frame.Has (P : GossipObj → Prop) (N : Notification → Prop) : Frame → Prop
  | .notify _ n | .request _ n => N n
  | .recv _ g | .recon g | .handle g | .blk g | .initFull g | .initFrag g | .initMal g | .initCon g | .store g | .storeBl g
  | .storeNote g | .sendPeers g | .sendOwner g | .arm g | .signBlk g | .sign g | .conCount g | .fragFull g | .fragStore g
  | .fragGen g | .fullBlk g | .fullCount g => P g
  | .fullNote | .save | .wipe => True

structure StorageHas (P : GossipObj → Prop) (s : Storage) : Prop where
  objs : ∀ t k o, (s.objs t).get k = some o → P o
  frags : ∀ t k, ∀ o ∈ s.fragList t k, P o ∧ o.type = t
  payloads : ∀ k o, s.revPayload.get k = some o → P o

/-- `B` is what was sent before. -/
structure StateHas (P : GossipObj → Prop) (N : Notification → Prop) (B : Out → Prop) (s : GState) : Prop where
  storage : StorageHas P s.storage
  timers : ∀ g ∈ s.timers, (g.type = .STH_INIT ∨ g.type = .REV_INIT) ∧ P g
  out : ∀ o ∈ s.out, B o ∨ o.Has P N

variable {P : GossipObj → Prop} {N : Notification → Prop} {K : Clock → Prop} {B : Out → Prop}

theorem StorageHas.step {s : GState} {f : Frame} {s' : Storage} (h : StorageHas P s.storage) (hf : f.Has P N)
    (hs : SStep cf s f s') : StorageHas P s' := by
  cases hs with
  | same => exact h
  | payload n g hv ht hn =>
    refine ⟨?_, ?_, ?_⟩
    · intro t k o ho
      exact h.objs t k o (by cases t <;> exact ho)
    · intro t k o ho
      exact h.frags t k o (by cases t <;> exact ho)
    · intro k o ho
      by_cases hk : k = g.getID
      · subst hk
        rw [show ({ s.storage with revPayload := s.storage.revPayload.set g.getID g } : Storage).revPayload =
          s.storage.revPayload.set g.getID g from rfl, GoMap.get_set_self] at ho
        cases ho; exact hf
      · rw [show ({ s.storage with revPayload := s.storage.revPayload.set g.getID g } : Storage).revPayload =
          s.storage.revPayload.set g.getID g from rfl, GoMap.get_set_ne _ _ hk] at ho
        exact h.payloads k o ho
  | put g hv ht hd =>
    refine ⟨?_, ?_, ?_⟩
    · intro t k o ho
      by_cases htt : t = g.type
      · subst htt
        rw [Storage.objs_putObj_same _ _ _ _ ht] at ho
        by_cases hk : k = g.getID
        · subst hk; rw [GoMap.get_set_self] at ho; cases ho; exact hf
        · rw [GoMap.get_set_ne _ _ hk] at ho; exact h.objs _ k o ho
      · rw [Storage.objs_putObj_ne _ _ _ htt] at ho; exact h.objs _ k o ho
    · intro t k o ho
      rw [Storage.fragList_putObj] at ho; exact h.frags t k o ho
    · intro k o ho
      rw [Storage.revPayload_putObj] at ho; exact h.payloads k o ho
  | frag g ht hl =>
    refine ⟨?_, ?_, ?_⟩
    · intro t k o ho
      rw [Storage.objs_appendFrag] at ho; exact h.objs t k o ho
    · intro t k o ho
      by_cases he : t = g.type ∧ k = g.getID
      · obtain ⟨rfl, rfl⟩ := he
        rw [Storage.fragList_appendFrag_same _ _ _ _ ht] at ho
        rcases List.mem_append.1 ho with h1 | h1
        · exact h.frags _ _ o h1
        · simp at h1; subst h1; exact ⟨hf, rfl⟩
      · rw [Storage.fragList_appendFrag_ne _ _ (by
          by_cases h1 : t = g.type
          · exact .inr fun e => he ⟨h1, e⟩
          · exact .inl h1)] at ho
        exact h.frags t k o ho
    · intro k o ho
      rw [Storage.revPayload_appendFrag] at ho; exact h.payloads k o ho
  | wipe =>
    refine ⟨?_, ?_, ?_⟩
    · intro t k o ho
      by_cases ht : t = .CON_INIT
      · subst ht; exact h.objs .CON_INIT k o ho
      · cases t <;> first | (exact absurd rfl ht) | (cases ho)
    · intro t k o ho
      cases t <;> cases ho
    · intro k o ho; cases ho

theorem StorageHas.getObject {s : GState} (h : StorageHas P s.storage) (hz : P .zero) (k : GossipID) (t : GType) :
    P (getObject s k t) := by
  unfold CTng.getObject
  cases hg : (s.storage.objs t).get k with
  | none => exact hz
  | some o => exact h.objs t k o hg

theorem StorageHas.requested {s : GState} (h : StorageHas P s.storage) (hz : P .zero) (k : GossipID) :
    P ((s.storage.revPayload.get k).getD .zero) := by
  cases hg : s.storage.revPayload.get k with
  | none => exact hz
  | some o => exact h.payloads k o hg

/-- One atomic action. -/
theorem StateHas.step (H : ObjClosed cf P N K) {clk : Clock} {s : GState} {f : Frame} (hk : K clk) (h : StateHas P N B s)
    (hw : f.wt) (hf : f.Has P N) : StateHas P N B (stepFrame cf clk s f).1 := by
  refine ⟨h.storage.step cf hf (stepFrame_storage cf clk s f hw), ?_, ?_⟩
  · intro g hg
    rcases stepFrame_timers cf clk s f with h1 | ⟨g', rfl, h1⟩
    · rw [h1] at hg; exact h.timers g hg
    · rw [h1] at hg
      rcases List.mem_append.1 hg with hg | hg
      · exact h.timers g hg
      · simp at hg; subst hg; exact ⟨hw, hf⟩
  · intro o ho
    obtain ⟨os, hos, he⟩ := stepFrame_out cf clk s f
    rw [he] at ho
    rcases List.mem_append.1 ho with h1 | h1
    · exact h.out o h1
    · right
      cases hos with
      | none => cases h1
      | signed g f' hg => simp at h1; subst h1; exact H.frag g f' hf hg
      | full g o' hg =>
        simp at h1; subst h1
        exact H.full clk _ _ o' hk (fun x hx => ⟨(h.storage.frags _ _ x hx).1, by unfold GossipObj.getTargetType; rw [(h.storage.frags _ _ x hx).2]⟩) (getTargetType_isFull hw) hg
      | owner g => simp at h1; subst h1; exact hf
      | announce g _ _ => simp at h1; obtain ⟨u, _, rfl⟩ := h1; exact ⟨H.notif g hf, .inl rfl⟩
      | forward g g' hg' _ =>
        simp at h1; obtain ⟨u, _, rfl⟩ := h1
        refine ⟨?_, .inl ?_⟩
        · rw [hg']
          split
          · rename_i hr
            exact H.remove g hr.2 hf
          · exact hf
        · rw [hg']; split <;> rfl
      | ask n x => simp at h1; subst h1; exact ⟨H.ask x hf, .inr rfl⟩
      | answer n x o' ho' hp => simp at h1; subst h1; rw [ho']; exact ⟨h.storage.requested H.zero _, .inr rfl⟩

theorem Frame.Has.afterStore {g : GossipObj} (hg : P g) (b : Bool) : ∀ f ∈ CTng.afterStore g b, f.Has P N := by
  intro f hf
  unfold CTng.afterStore at hf
  cases ht : g.type <;> rw [ht] at hf <;> cases b <;> simp at hf <;>
    (try (rcases hf with rfl | rfl | rfl)) <;> (try (rcases hf with rfl | rfl)) <;> (try subst hf) <;> first | trivial | exact hg

theorem Frame.Has.new (H : ObjClosed cf P N K) {clk : Clock} {s : GState} {f : Frame} (hk : K clk) (h : StateHas P N B s)
    (hw : f.wt) (hf : f.Has P N) (new : List Frame) (hn : (stepFrame cf clk s f).2 = some new) : ∀ f' ∈ new, f'.Has P N := by
  have nil : ∀ f' ∈ ([] : List Frame), f'.Has P N := fun _ h => by cases h
  have one : ∀ {f0 : Frame}, f0.Has P N → ∀ f' ∈ [f0], f'.Has P N := fun h0 f' h => by simp at h; subst h; exact h0
  cases f with
  | recv n g =>
    simp only [stepFrame] at hn
    split at hn <;> simp at hn
    subst hn; exact one hf
  | recon g =>
    simp only [stepFrame, Option.some.injEq] at hn; subst hn
    refine one ?_
    show P _
    split
    · rename_i hr
      exact H.payload g _ hr.2 hf (h.storage.requested H.zero _)
    · exact hf
  | handle g =>
    simp only [stepFrame, Option.some.injEq] at hn; subst hn
    split
    · exact nil
    · exact one hf
  | blk g =>
    simp only [stepFrame, Option.some.injEq] at hn; subst hn
    split
    · exact nil
    · split <;> first | exact one hf | exact nil
  | initFull g =>
    simp only [stepFrame, Option.some.injEq] at hn; subst hn
    split
    · exact nil
    · exact one hf
  | initFrag g =>
    simp only [stepFrame, Option.some.injEq] at hn; subst hn
    split
    · exact nil
    · split <;> exact one hf
  | initMal g =>
    simp only [stepFrame, Option.some.injEq] at hn; subst hn
    split <;> exact one hf
  | initCon g =>
    simp only [stepFrame, Option.some.injEq] at hn; subst hn
    exact one (H.con clk _ _ hk (h.storage.getObject H.zero _ _) hf)
  | store g =>
    simp only [stepFrame] at hn
    split at hn
    · cases hn
    · simp at hn; subst hn; exact Frame.Has.afterStore hf false
    · split at hn
      · simp at hn; subst hn; exact Frame.Has.afterStore hf false
      · simp at hn; subst hn; exact one hf
  | storeBl g => simp only [stepFrame, Option.some.injEq] at hn; subst hn; exact one hf
  | storeNote g => simp only [stepFrame, Option.some.injEq] at hn; subst hn; exact Frame.Has.afterStore hf true
  | signBlk g =>
    simp only [stepFrame, Option.some.injEq] at hn; subst hn
    split
    · exact nil
    · exact one hf
  | sign g =>
    simp only [stepFrame, signStatement] at hn
    cases hg : generateFRAG cf g with
    | none => rw [hg] at hn; cases hn
    | some f' => rw [hg] at hn; simp at hn; subst hn; exact one (H.frag g f' hf hg)
  | conCount g =>
    simp only [stepFrame, Option.some.injEq] at hn; subst hn
    split
    · exact one hf
    · exact nil
  | fragFull g =>
    simp only [stepFrame, Option.some.injEq] at hn; subst hn
    split
    · exact nil
    · exact one hf
  | fragStore g =>
    simp only [stepFrame, Option.some.injEq] at hn; subst hn
    intro f' hf'
    rcases List.mem_append.1 hf' with h1 | h1 <;> split at h1 <;> simp at h1 <;> subst h1 <;> exact hf
  | fragGen g =>
    simp only [stepFrame] at hn
    split at hn
    · cases hn
    · rename_i o ho
      simp at hn; subst hn
      exact one (H.full clk _ _ o hk (fun x hx => ⟨(h.storage.frags _ _ x hx).1, by unfold GossipObj.getTargetType; rw [(h.storage.frags _ _ x hx).2]⟩) (getTargetType_isFull hw) ho)
  | fullBlk g =>
    simp only [stepFrame, Option.some.injEq] at hn; subst hn
    split
    · exact nil
    · exact one hf
  | fullCount g =>
    simp only [stepFrame, Option.some.injEq] at hn; subst hn
    split
    · exact one hf
    · exact one trivial
  | _ => simp only [stepFrame, Option.some.injEq] at hn; subst hn; exact nil

/-- What arrives has the property. -/
def CEvent.Has (P : GossipObj → Prop) (N : Notification → Prop) : CEvent → Prop
  | .recv _ o => P o
  | .notify _ n | .request _ n => N n
  | _ => True

structure CHas (P : GossipObj → Prop) (N : Notification → Prop) (B : Out → Prop) (c : CState) : Prop where
  state : StateHas P N B c.g
  frames : ∀ t ∈ c.threads, ∀ f ∈ t.frames, f.wt ∧ f.Has P N

theorem CHas.cstep (H : ObjClosed cf P N K) {c : CState} (h : CHas P N B c) {e : Clock × CEvent} (hk : K e.1) (he : e.2.Has P N) :
    CHas P N B (cstep cf c e) := by
  obtain ⟨clk, ev⟩ := e
  have spawn : ∀ fs fatal, (∀ f ∈ fs, f.wt ∧ f.Has P N) → CHas P N B { c with threads := c.threads ++ [(⟨fs, fatal⟩ : Thread)] } := by
    intro fs fatal hfs
    refine ⟨h.state, ?_⟩
    intro t ht f hft
    rcases List.mem_append.1 ht with ht | ht
    · exact h.frames t ht f hft
    · simp at ht; subst ht; exact hfs f hft
  unfold CTng.cstep
  split
  · exact h
  · cases ev with
    | recv n o => exact spawn _ _ (by intro f hf; simp at hf; subst hf; exact ⟨trivial, he⟩)
    | notify n o => exact spawn _ _ (by intro f hf; simp at hf; subst hf; exact ⟨trivial, he⟩)
    | request n o => exact spawn _ _ (by intro f hf; simp at hf; subst hf; exact ⟨trivial, he⟩)
    | periodic => exact spawn _ _ (by intro f hf; simp at hf; rcases hf with rfl | rfl <;> exact ⟨trivial, trivial⟩)
    | fire i =>
      simp only
      cases ht : c.g.timers[i]? with
      | none => exact h
      | some o =>
        have ho := h.state.timers o (List.mem_of_getElem? ht)
        refine ⟨⟨h.state.storage, fun g hg => h.state.timers g (List.mem_of_mem_eraseIdx hg), h.state.out⟩, ?_⟩
        intro t ht' f hft
        rcases List.mem_append.1 ht' with ht' | ht'
        · exact h.frames t ht' f hft
        · simp at ht'; subst ht'; simp at hft; subst hft
          exact ⟨by show o.type.isInit = true; rcases ho.1 with e | e <;> rw [e] <;> rfl, ho.2⟩
    | run i =>
      simp only
      cases ht : c.threads[i]? with
      | none => exact h
      | some t =>
        have htm : t ∈ c.threads := List.mem_of_getElem? ht
        simp only [stepThread]
        cases hfr : t.frames with
        | nil =>
          refine ⟨h.state, ?_⟩
          intro t' ht' f hft'
          rcases List.mem_or_eq_of_mem_set ht' with h1 | h1
          · exact h.frames t' h1 f hft'
          · subst h1; rw [hfr] at hft'; cases hft'
        | cons f fs =>
          have hf := h.frames t htm f (by rw [hfr]; simp)
          have hs := h.state.step cf H hk hf.1 hf.2
          have hn := Frame.Has.new cf H hk h.state hf.1 hf.2
          have hwn := wt_new cf clk c.g f hf.1
          simp only
          rcases hst : stepFrame cf clk c.g f with ⟨s', new⟩
          rw [hst] at hs hn hwn
          cases new with
          | some new =>
            refine ⟨hs, ?_⟩
            intro t' ht' f' hft'
            rcases List.mem_or_eq_of_mem_set ht' with h1 | h1
            · exact h.frames t' h1 f' hft'
            · subst h1
              rcases List.mem_append.1 hft' with h2 | h2
              · exact ⟨hwn new rfl f' h2, hn new rfl f' h2⟩
              · exact h.frames t htm f' (by rw [hfr]; simp [h2])
          | none =>
            have hfr' : ∀ t' ∈ c.threads.set i { t with frames := [] }, ∀ f' ∈ t'.frames, f'.wt ∧ f'.Has P N := by
              intro t' ht' f' hft'
              rcases List.mem_or_eq_of_mem_set ht' with h1 | h1
              · exact h.frames t' h1 f' hft'
              · subst h1; cases hft'
            simp only
            split
            · exact ⟨⟨hs.storage, hs.timers, hs.out⟩, hfr'⟩
            · exact ⟨hs, hfr'⟩

theorem CHas.init : CHas P N B CState.init := by
  refine ⟨⟨⟨?_, ?_, ?_⟩, ?_, ?_⟩, ?_⟩
  · intro t k o ho
    have : ((CState.init.g.storage).objs t).get k = none := by
      show (Storage.init.objs t).get k = none
      rw [Storage.objs_init]; rfl
    rw [this] at ho; cases ho
  · intro t k o ho
    have : (CState.init.g.storage).fragList t k = [] := Storage.fragList_init t k
    rw [this] at ho; cases ho
  · intro k o ho; cases ho
  · intro g hg; cases hg
  · intro o ho; cases ho
  · intro t ht; cases ht

/-- Over any interleaving. -/
theorem CHas.crun (H : ObjClosed cf P N K) (l : History) {c : CState} (hc : CHas P N B c) (hl : ∀ e ∈ l, K e.1 ∧ e.2.Has P N) :
    CHas P N B (CTng.crun cf c l) := by
  induction l generalizing c with
  | nil => exact hc
  | cons e t ih => exact ih (hc.cstep cf H (hl e (by simp)).1 (hl e (by simp)).2) fun x hx => hl x (by simp [hx])

end CTng
