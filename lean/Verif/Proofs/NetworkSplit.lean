import Verif.Props.Network
import Verif.Props.GossiperSeq
/- Two versions of one tree head on their way through a network of gossipers. -/
set_option autoImplicit false

namespace CTng
variable {L : Lib} {cf : GConf L}

/-- The program point carries the object. -/
def Carry (o : GossipObj) (f : Frame) : Prop := Learns o f ∨ f = .initCon o ∨ Sends o f

/-- The next program points of some goroutine. -/
def PendingL (c : CState) (l : List Frame) : Prop := ∃ t ∈ c.threads, ∃ r, t.frames = l ++ r

theorem pendingL_one {c : CState} {f : Frame} : PendingL c [f] ↔ Pending c f := by
  constructor
  · rintro ⟨t, ht, r, h⟩; exact ⟨t, ht, by rw [h]; rfl⟩
  · rintro ⟨t, ht, h⟩
    cases hf : t.frames with
    | nil => rw [hf] at h; cases h
    | cons a l => rw [hf] at h; cases h; exact ⟨t, ht, l, hf⟩

/-- What one event does to the next program points of a goroutine, if the gossiper still runs afterwards. -/
theorem cstep_pendingL (cf : GConf L) (c : CState) (e : Clock × CEvent) (h' : (cstep cf c e).g.crashed = false) (f : Frame) (l : List Frame)
    (hp : PendingL c (f :: l)) :
    PendingL (cstep cf c e) (f :: l) ∨
    ((cstep cf c e).g = (stepFrame cf e.1 c.g f).1 ∧
      ∀ new, (stepFrame cf e.1 c.g f).2 = some new → PendingL (cstep cf c e) (new ++ l)) := by
  obtain ⟨t, ht, r, hr⟩ := hp
  obtain ⟨clk, ev⟩ := e
  have hap : ∀ (g : GState) (ts : List Thread), PendingL ⟨g, c.threads ++ ts⟩ (f :: l) := fun g ts =>
    ⟨t, List.mem_append_left _ ht, r, hr⟩
  unfold cstep at h' ⊢
  split at h'
  · rename_i hcr; rw [hcr] at h'; cases h'
  rename_i hcr
  rw [if_neg hcr]
  cases ev with
  | recv n o => exact .inl (hap _ _)
  | notify n o => exact .inl (hap _ _)
  | request n o => exact .inl (hap _ _)
  | periodic => exact .inl (hap _ _)
  | fire i =>
    simp only
    cases c.g.timers[i]? with
    | none => exact .inl ⟨t, ht, r, hr⟩
    | some o => exact .inl (hap _ _)
  | run i =>
    simp only at h' ⊢
    cases hti : c.threads[i]? with
    | none => exact .inl ⟨t, ht, r, hr⟩
    | some u =>
      rw [hti] at h'
      simp only at h' ⊢
      have hlt : i < c.threads.length := (List.getElem?_eq_some_iff.1 hti).1
      by_cases e : t = u
      · subst e
        simp only [stepThread, hr, List.cons_append] at h' ⊢
        rcases hst : stepFrame cf clk c.g f with ⟨s', new⟩
        rw [hst] at h'
        right
        cases new with
        | some new =>
          refine ⟨rfl, fun new' hn => ?_⟩
          cases hn
          exact ⟨_, List.mem_set hlt _, r, by simp⟩
        | none =>
          refine ⟨?_, fun new' hn => by cases hn⟩
          simp only at h' ⊢
          by_cases hfat : t.fatal = true
          · rw [if_pos hfat] at h'; cases h'
          · rw [if_neg hfat]
      · left
        obtain ⟨j, hj⟩ := List.getElem?_of_mem ht
        have hij : i ≠ j := by rintro rfl; rw [hti] at hj; exact e (Option.some.inj hj).symm
        refine ⟨t, List.mem_of_getElem? (i := j) ?_, r, hr⟩
        simp only
        rw [List.getElem?_set, if_neg hij]; exact hj

/-- New program points that carry a tree head carry the one of the executed program point. -/
theorem carry_new (clk : Clock) (s : GState) (f : Frame) (hwt : f.wt) (o : GossipObj) (ht : o.type = .STH_INIT) (new : List Frame)
    (h : (stepFrame cf clk s f).2 = some new) (f' : Frame) (hm : f' ∈ new) (hc : Carry o f') : Carry o f := by
  have aft : ∀ g' b, f' ∈ afterStore g' b → g' = o ∨ g'.type ≠ .STH_INIT := by
    intro g' b hmem
    unfold afterStore at hmem
    split at hmem <;> (try split at hmem) <;> simp at hmem <;> (try (right; simp_all; done)) <;>
      (left; unfold Carry Learns Sends at hc; rcases hmem with rfl | rfl | rfl <;> simp at hc; exact hc)
  unfold Carry Learns Sends at hc ⊢
  cases f with
  | recv n g =>
    simp only [stepFrame] at h
    split at h <;> simp at h
    subst h; simp at hm; subst hm; simp at hc; subst hc; simp
  | recon g =>
    simp only [stepFrame, Option.some.injEq] at h; subst h
    simp at hm; subst hm; simp at hc
    split at hc
    · rename_i hr; rw [← hc] at ht; simp [reconstructPayload, hr.2] at ht
    · subst hc; simp
  | handle g =>
    simp only [stepFrame, Option.some.injEq] at h; subst h
    split at hm <;> simp at hm; subst hm; simp at hc; subst hc; simp
  | blk g =>
    simp only [stepFrame, Option.some.injEq] at h; subst h
    split at hm
    · cases hm
    · split at hm <;> simp at hm <;> subst hm <;> simp at hc <;> subst hc <;> simp
  | initFull g =>
    simp only [stepFrame, Option.some.injEq] at h; subst h
    split at hm <;> simp at hm; subst hm; simp at hc; subst hc; simp
  | initFrag g =>
    simp only [stepFrame, Option.some.injEq] at h; subst h
    split at hm
    · cases hm
    · split at hm <;> simp at hm <;> subst hm <;> simp at hc <;> subst hc <;> simp
  | initMal g =>
    simp only [stepFrame, Option.some.injEq] at h; subst h
    split at hm <;> simp at hm <;> subst hm <;> simp at hc <;> subst hc <;> simp
  | initCon g =>
    simp only [stepFrame, Option.some.injEq] at h; subst h
    simp at hm; subst hm; simp at hc; subst hc; cases ht
  | store g =>
    simp only [stepFrame] at h
    split at h
    · cases h
    · simp at h; subst h
      rcases aft _ _ hm with rfl | h1
      · simp
      · exfalso
        unfold afterStore at hm; split at hm <;> simp_all <;> (rcases hm with rfl | rfl <;> simp_all)
    · split at h
      · simp at h; subst h
        rcases aft _ _ hm with rfl | h1
        · simp
        · exfalso
          unfold afterStore at hm; split at hm <;> simp_all <;> (rcases hm with rfl | rfl <;> simp_all)
      · simp at h; subst h; simp at hm; subst hm; simp at hc; subst hc; simp
  | storeBl g =>
    simp only [stepFrame, Option.some.injEq] at h; subst h
    simp at hm; subst hm; simp at hc; subst hc; simp
  | storeNote g =>
    simp only [stepFrame, Option.some.injEq] at h; subst h
    rcases aft _ _ hm with rfl | h1
    · simp
    · exfalso
      unfold afterStore at hm
      split at hm <;> (try simp_all; done) <;> simp at hm <;> (try (rcases hm with rfl | rfl <;> simp at hc; done)) <;>
        (try (subst hm; simp at hc; done)) <;>
        (rcases hm with rfl | rfl | rfl <;> simp at hc <;> subst hc <;> simp_all) <;>
        (rcases hm with rfl | rfl <;> simp at hc <;> subst hc <;> simp_all)
  | sign g =>
    simp only [stepFrame] at h
    split at h
    · cases h
    · rename_i s1 f1 hs
      simp at h; subst h; simp at hm; subst hm; simp at hc
      subst hc
      unfold signStatement at hs
      cases hg : generateFRAG cf g with
      | none => rw [hg] at hs; cases hs
      | some x =>
        rw [hg] at hs; simp at hs
        have : x.type ≠ .STH_INIT := by
          unfold generateFRAG at hg
          split at hg
          · cases hg
          · cases hg
            simp only
            cases hty : g.type <;> simp
        rw [hs.2] at this; exact absurd ht this
  | conCount g =>
    simp only [stepFrame, Option.some.injEq] at h; subst h
    split at hm <;> simp at hm; subst hm; simp at hc; subst hc; simp
  | fragFull g =>
    simp only [stepFrame, Option.some.injEq] at h; subst h
    split at hm <;> simp at hm; subst hm; simp at hc
  | fragStore g =>
    simp only [stepFrame, Option.some.injEq] at h; subst h
    have hw : g.type.isFrag = true := hwt
    rcases List.mem_append.1 hm with h1 | h1 <;> split at h1 <;> simp at h1 <;> subst h1 <;> simp at hc
    subst hc; rw [ht] at hw; cases hw
  | fragGen g =>
    simp only [stepFrame] at h
    split at h
    · cases h
    · rename_i x hx
      simp at h; subst h; simp at hm; subst hm; simp at hc
      subst hc
      have h1 := generateFULL_type hx
      have h2 := getTargetType_isFull (g := g) hwt
      rw [← h1, ht] at h2; cases h2
  | fullBlk g =>
    simp only [stepFrame, Option.some.injEq] at h; subst h
    split at hm <;> simp at hm; subst hm; simp at hc
  | fullCount g =>
    simp only [stepFrame, Option.some.injEq] at h; subst h
    have hw : g.type.isFull = true := hwt
    split at hm <;> simp at hm <;> subst hm <;> simp at hc
    subst hc; rw [ht] at hw; cases hw
  | signBlk g =>
    simp only [stepFrame, Option.some.injEq] at h; subst h
    split at hm <;> simp at hm; subst hm; simp at hc
  | _ => simp only [stepFrame, Option.some.injEq] at h; subst h; cases hm

/-- Where a tree head on a goroutine of a gossiper comes from. -/
theorem cstep_carry (c : CState) (hs : Sound cf c) (e : Clock × CEvent) (f : Frame) (o : GossipObj) (ht : o.type = .STH_INIT)
    (h : HasFrame (cstep cf c e) f) (hc : Carry o f) : (∃ f0, HasFrame c f0 ∧ Carry o f0) ∨ ∃ n, e.2 = .recv n o := by
  obtain ⟨clk, ev⟩ := e
  have hap : ∀ (g : GState) (fs : List Frame) (b : Bool), HasFrame ⟨g, c.threads ++ [⟨fs, b⟩]⟩ f → HasFrame c f ∨ f ∈ fs := by
    rintro g fs b ⟨t, ht, hf⟩
    rcases List.mem_append.1 ht with ht | ht
    · exact .inl ⟨t, ht, hf⟩
    · simp at ht; subst ht; exact .inr hf
  unfold cstep at h
  split at h
  · exact .inl ⟨f, h, hc⟩
  cases ev with
  | recv n g =>
    rcases hap _ _ _ h with h | h
    · exact .inl ⟨f, h, hc⟩
    · simp at h; subst h
      simp [Carry, Learns, Sends] at hc
      exact .inr ⟨n, by rw [hc]⟩
  | notify n g =>
    rcases hap _ _ _ h with h | h
    · exact .inl ⟨f, h, hc⟩
    · simp at h; subst h; simp [Carry, Learns, Sends] at hc
  | request n g =>
    rcases hap _ _ _ h with h | h
    · exact .inl ⟨f, h, hc⟩
    · simp at h; subst h; simp [Carry, Learns, Sends] at hc
  | periodic =>
    rcases hap _ _ _ h with h | h
    · exact .inl ⟨f, h, hc⟩
    · simp at h; rcases h with rfl | rfl <;> simp [Carry, Learns, Sends] at hc
  | fire i =>
    simp only at h
    cases hti : c.g.timers[i]? with
    | none => rw [hti] at h; exact .inl ⟨f, h, hc⟩
    | some g =>
      rw [hti] at h
      rcases hap _ _ _ h with h | h
      · exact .inl ⟨f, h, hc⟩
      · simp at h; subst h; simp [Carry, Learns, Sends] at hc
  | run i =>
    simp only at h
    cases hti : c.threads[i]? with
    | none => rw [hti] at h; exact .inl ⟨f, h, hc⟩
    | some t =>
      rw [hti] at h
      have htm := List.mem_of_getElem? hti
      obtain ⟨u, hu, hf⟩ := h
      simp only at hu
      rcases List.mem_or_eq_of_mem_set hu with h1 | h1
      · exact .inl ⟨f, ⟨u, h1, hf⟩, hc⟩
      · subst h1
        simp only [stepThread] at hf
        cases hfr : t.frames with
        | nil => rw [hfr] at hf; simp only at hf; rw [hfr] at hf; cases hf
        | cons a l =>
          rw [hfr] at hf
          have hat : HasFrame c a := ⟨t, htm, by rw [hfr]; exact List.mem_cons_self⟩
          rcases hst : stepFrame cf clk c.g a with ⟨s', new⟩
          simp only [hst] at hf
          cases new with
          | none => cases hf
          | some new =>
            simp only at hf
            rcases List.mem_append.1 hf with h2 | h2
            · exact .inl ⟨a, hat, carry_new clk c.g a (hs.wt a hat) o ht new (by rw [hst]) f h2 hc⟩
            · exact .inl ⟨f, ⟨t, htm, by rw [hfr]; exact List.mem_cons_of_mem _ h2⟩, hc⟩

/-- A tree head that a gossiper posts was about to be sent. -/
theorem cstep_post (c : CState) (hs : Sound cf c) (e : Clock × CEvent) (m : Msg) (o : GossipObj) (ht : o.type = .STH_INIT)
    (hm : m ∈ postsOf ((cstep cf c e).g.out.drop c.g.out.length)) (hb : m.body = .obj o) : Pending c (.sendPeers o) := by
  obtain ⟨clk, ev⟩ := e
  have hno : ∀ s' : GState, s'.out = c.g.out → m ∉ postsOf (s'.out.drop c.g.out.length) := by
    intro s' h1; rw [h1]; simp [postsOf]
  unfold cstep at hm
  split at hm
  · exact absurd hm (hno _ rfl)
  cases ev with
  | recv n g => exact absurd hm (hno _ rfl)
  | notify n g => exact absurd hm (hno _ rfl)
  | request n g => exact absurd hm (hno _ rfl)
  | periodic => exact absurd hm (hno _ rfl)
  | fire i =>
    simp only at hm
    cases hti : c.g.timers[i]? with
    | none => rw [hti] at hm; exact absurd hm (hno _ rfl)
    | some g => rw [hti] at hm; exact absurd hm (hno _ rfl)
  | run i =>
    simp only at hm
    cases hti : c.threads[i]? with
    | none => rw [hti] at hm; exact absurd hm (hno _ rfl)
    | some t =>
      rw [hti] at hm
      simp only [stepThread] at hm
      cases hfr : t.frames with
      | nil => rw [hfr] at hm; exact absurd hm (hno _ rfl)
      | cons a l =>
        rw [hfr] at hm
        obtain ⟨out, hO, ho⟩ := stepFrame_out cf clk c.g a
        have key : m ∈ postsOf out := by
          rcases hst : stepFrame cf clk c.g a with ⟨s', new⟩
          rw [hst] at ho
          simp only [hst] at hm
          have h1 : ∀ g : GState, g.out = s'.out → m ∈ postsOf (g.out.drop c.g.out.length) → m ∈ postsOf out := by
            intro g h1 h2; rw [h1, ho, List.drop_left] at h2; exact h2
          cases new with
          | some new => exact h1 _ rfl hm
          | none =>
            simp only at hm
            split at hm <;> exact h1 _ rfl hm
        have hpa : a = .sendPeers o → Pending c (.sendPeers o) := by
          rintro rfl; exact ⟨t, List.mem_of_getElem? hti, by rw [hfr]; rfl⟩
        unfold postsOf at key
        obtain ⟨x, hx, hxm⟩ := List.mem_filterMap.1 key
        cases hO with
        | none => cases hx
        | signed g f _ => simp at hx; subst hx; cases hxm
        | full g f _ => simp at hx; subst hx; cases hxm
        | owner g => simp at hx; subst hx; cases hxm
        | announce g _ _ =>
          obtain ⟨u, _, rfl⟩ := List.mem_map.1 hx
          simp at hxm; subst hxm; cases hb
        | forward g g' hg' _ =>
          obtain ⟨u, _, rfl⟩ := List.mem_map.1 hx
          simp at hxm; subst hxm
          simp at hb; subst hb
          split at hg'
          · rename_i hr; rw [hg'] at ht; simp [removePayload, hr.2] at ht
          · exact hpa (by rw [hg'])
        | ask n y => simp at hx; subst hx; simp at hxm; subst hxm; cases hb
        | answer n y g hg hne =>
          simp at hx; subst hx; simp at hxm; subst hxm
          simp at hb; subst hb
          exfalso
          unfold getREVrequested at hg
          cases hgg : c.g.storage.revPayload.get { period := y.period, type := .REV_INIT, entity := y.entity : GossipID } with
          | none => rw [hgg] at hg; rw [hg] at hne; exact hne rfl
          | some v =>
            rw [hgg] at hg
            simp at hg
            have := (hs.storage.payload _ _ hgg).2.1
            rw [← hg, ht] at this; cases this

section
variable {c c' : CState} {k : GossipID}

/-- What is held under the key of a tree head was held before or has just been stored. -/
theorem slot_act (hs : Sound cf c) (ha : Act cf c c') (hk : k.type = .STH_INIT) {v : GossipObj}
    (h : (c'.g.storage.objs .STH_INIT).get k = some v) :
    (c.g.storage.objs .STH_INIT).get k = some v ∨
    (Pending c (.store v) ∧ v.getID = k ∧ v.verify cf.crypto = .ok ∧ Pending c' (.storeBl v)) := by
  cases ha with
  | idle h1 _ _ _ _ => rw [h1] at h; exact .inl h
  | exec clk f hp hg keep next rev =>
    have hS := stepFrame_storage cf clk c.g f (hs.wt f hp.has)
    rw [hg] at h
    generalize hst : (stepFrame cf clk c.g f).1.storage = st at hS h
    cases hS with
    | same => exact .inl h
    | payload n g _ _ _ => exact .inl h
    | frag g _ _ => simp at h; exact .inl h
    | wipe => simp [Storage.objs, Storage.init] at h
    | put g hv hobj hd =>
      by_cases e : g.type = .STH_INIT
      · rw [← e, Storage.objs_putObj_same _ _ _ _ hobj, GoMap.get_set] at h
        split at h
        · rename_i e'
          obtain rfl : g = v := Option.some.inj h
          refine .inr ⟨hp, e'.symm, hv, ?_⟩
          rcases hl : storeLocked { c.g with timerlist := c.g.timerlist ++ [clk.second] } g with ⟨s1, b⟩
          rcases storage_storeLocked hobj hl with ⟨rfl, _, hd'⟩ | ⟨rfl, _, _⟩
          · have : dupCheck c.g g = true := (dupCheck_congr rfl g).trans hd'
            rw [hd (by rw [e]; rfl)] at this
            cases this
          · exact next [.storeBl g] _ (by simp only [stepFrame, hv, hl]) rfl
        · rw [e] at h; exact .inl h
      · rw [Storage.objs_putObj_ne _ _ _ (Ne.symm e)] at h; exact .inl h

/-- Whoever is passing a tree head on holds one. -/
theorem sends_act (hs : Sound cf c) (hw : KeepsKey c k) (ha : Act cf c c') (hk : k.type = .STH_INIT)
    (h : ∀ f o, HasFrame c f → Sends o f → o.getID = k → HeldKey c k) :
    ∀ f o, HasFrame c' f → Sends o f → o.getID = k → HeldKey c' k := by
  intro f' o hf' hso hid
  have hty : o.type = .STH_INIT := (congrArg GossipID.type hid : o.type = k.type).trans hk
  have ha0 := ha
  cases ha with
  | idle h1 h2 h3 keep rev =>
    rcases rev _ hf' with h4 | h4
    · exact (h f' o h4 hso hid).act hs hw ha0
    · exfalso; rcases hso with rfl | rfl | rfl <;> cases h4
  | exec clk f hp hg keep next rev =>
    rcases rev _ hf' with h4 | ⟨new, hnew, hm⟩
    · exact (h f' o h4 hso hid).act hs hw ha0
    · have hc := carry_new clk c.g f (hs.wt f hp.has) o hty new hnew f' hm (.inr (.inr hso))
      have hS : Sends o f → HeldKey c' k := fun hs' => (h f o hp.has hs' hid).act hs hw ha0
      rcases hc with hl | rfl | hs'
      · have hst : f = .store o := by
          rcases hl with ⟨n, rfl⟩ | rfl | rfl | rfl | rfl | rfl | rfl | rfl | rfl
          · exfalso
            simp only [stepFrame] at hnew
            split at hnew <;> simp at hnew
            subst hnew; simp at hm; subst hm; rcases hso with h | h | h <;> cases h
          · exfalso
            simp only [stepFrame, Option.some.injEq] at hnew; subst hnew
            simp at hm; subst hm; rcases hso with h | h | h <;> cases h
          · exfalso
            simp only [stepFrame, Option.some.injEq] at hnew; subst hnew
            split at hm <;> simp at hm; subst hm; rcases hso with h | h | h <;> cases h
          · exfalso
            simp only [stepFrame, Option.some.injEq] at hnew; subst hnew
            split at hm
            · cases hm
            · split at hm <;> simp at hm <;> subst hm <;> rcases hso with h | h | h <;> cases h
          · exfalso
            simp only [stepFrame, Option.some.injEq] at hnew; subst hnew
            split at hm <;> simp at hm; subst hm; rcases hso with h | h | h <;> cases h
          · exfalso
            simp only [stepFrame, Option.some.injEq] at hnew; subst hnew
            split at hm
            · cases hm
            · split at hm <;> simp at hm <;> subst hm <;> rcases hso with h | h | h <;> cases h
          · exfalso
            simp only [stepFrame, Option.some.injEq] at hnew; subst hnew
            split at hm <;> simp at hm <;> subst hm <;> rcases hso with h | h | h <;> cases h
          · exfalso
            simp only [stepFrame, Option.some.injEq] at hnew; subst hnew
            split at hm <;> simp at hm; subst hm; rcases hso with h | h | h <;> cases h
          · rfl
        subst hst
        have hobj : o.type.isObj = true := by rw [hty]; rfl
        have hns : ∀ b, f' ∈ afterStore o b → b = true := by
          intro b hb
          cases b with
          | true => rfl
          | false => simp [afterStore, hty] at hb
        unfold HeldKey
        rw [hg, hk]
        simp only [stepFrame] at hnew ⊢
        cases hv : o.verify cf.crypto with
        | panic => rw [hv] at hnew; cases hnew
        | err e => rw [hv] at hnew; simp at hnew; subst hnew; cases hns _ hm
        | ok =>
          rw [hv] at hnew
          simp only at hnew ⊢
          rcases hl : storeLocked { c.g with timerlist := c.g.timerlist ++ [clk.second] } o with ⟨s1, b⟩
          rw [hl] at hnew
          rcases storage_storeLocked hobj hl with ⟨rfl, h1, hd'⟩ | ⟨rfl, h1, _⟩
          · simp at hnew; subst hnew; cases hns _ hm
          · simp only
            rw [h1, ← hty]
            simp only
            rw [Storage.objs_putObj_same _ _ _ _ hobj, hid]
            simp
      · exfalso
        simp only [stepFrame, Option.some.injEq] at hnew; subst hnew
        simp at hm; subst hm; rcases hso with h | h | h <;> cases h
      · exact hS hs'

theorem dupCheck_sig {s : GState} {o : GossipObj} (ht : o.type = .STH_INIT) (h : dupCheck s o = true) :
    ∃ v, (s.storage.objs .STH_INIT).get o.getID = some v ∧ v.sig = o.sig := by
  unfold dupCheck at h
  rw [ht] at h
  simp only at h
  cases hg : (s.storage.objs .STH_INIT).get o.getID with
  | none => rw [hg] at h; cases h
  | some v => rw [hg] at h; exact ⟨v, rfl, by simpa using h⟩

/-- One step of a tree head on its way into the store. -/
theorem learnS_act (hs : Sound cf c) (hth : 0 < cf.crypto.threshold) {o : GossipObj} (hk : k.type = .STH_INIT)
    (ho : Carrier cf k o) (ha : Act cf c c') (h : ∃ f, Learns o f ∧ Pending c f) :
    (∃ f, Learns o f ∧ Pending c' f) ∨ c.g.blacklist.has k.entity = true ∨
    (∃ v, (c.g.storage.objs .STH_INIT).get k = some v ∧ v.sig = o.sig) ∨
    (isMalicious c.g o = true ∧ Pending c' (.initCon o)) ∨
    (HasFrame c (.store o) ∧ Pending c' (.storeBl o)) := by
  have htype : o.type = .STH_INIT := (congrArg GossipID.type ho.id : o.type = k.type).trans hk
  have hent : o.payload.p0 = k.entity := congrArg GossipID.entity ho.id
  have hobj : o.type.isObj = true := by rw [htype]; rfl
  have hty : o.type = .STH_INIT ∨ o.type = .REV_INIT := .inl htype
  obtain ⟨f, hf, hp⟩ := h
  cases ha with
  | idle h1 h2 h3 keep rev => exact .inl ⟨f, hf, keep f hp⟩
  | exec clk f0 hp0 hg keep next rev =>
    by_cases e : f = f0
    · subst e
      have go : ∀ f', Learns o f' → (stepFrame cf clk c.g f).2 = some [f'] → ∃ f, Learns o f ∧ Pending c' f :=
        fun f' h1 h2 => ⟨f', h1, next _ f' h2 rfl⟩
      have hsl : dupCheck c.g o = true → ∃ v, (c.g.storage.objs .STH_INIT).get k = some v ∧ v.sig = o.sig := by
        intro hd
        have := dupCheck_sig htype hd
        rw [ho.id] at this
        exact this
      rcases hf with ⟨n, rfl⟩ | rfl | rfl | rfl | rfl | rfl | rfl | rfl | rfl
      · exact .inl (go (.recon o) (by simp [Learns]) (by simp [stepFrame, htype]))
      · exact .inl (go (.handle o) (by simp [Learns]) (by simp [stepFrame, htype]))
      · cases hd : dupCheck c.g o with
        | true => exact .inr (.inr (.inl (hsl hd)))
        | false => exact .inl (go (.blk o) (by simp [Learns]) (by simp [stepFrame, hd]))
      · cases hb : inBlacklist c.g o.payload.p0 with
        | true => rw [hent] at hb; exact .inr (.inl hb)
        | false => exact .inl (go (.initFull o) (by simp [Learns]) (by simp [stepFrame, hb, htype]))
      · exact .inl (go (.initFrag o) (by simp [Learns]) (by simp [stepFrame, full_count_zero hs hty]))
      · refine .inl (go (.initMal o) (by simp [Learns]) ?_)
        have h0 := frag_count_zero hs hty
        simp only [stepFrame, h0]
        rw [if_neg (by simp; omega)]
        simp [htype]
      · cases hm : isMalicious c.g o with
        | true => exact .inr (.inr (.inr (.inl ⟨rfl, next [.initCon o] _ (by simp [stepFrame, hm]) rfl⟩)))
        | false => exact .inl (go (.store o) (by simp [Learns]) (by simp [stepFrame, hm]))
      · have : o.type = .CON_INIT := hs.wt _ hp.has
        rw [htype] at this; cases this
      · rcases hl : storeLocked { c.g with timerlist := c.g.timerlist ++ [clk.second] } o with ⟨s1, b⟩
        rcases storage_storeLocked hobj hl with ⟨rfl, h1, hd⟩ | ⟨rfl, h1, _⟩
        · exact .inr (.inr (.inl (hsl ((dupCheck_congr rfl o).trans hd))))
        · exact .inr (.inr (.inr (.inr ⟨hp.has, next [.storeBl o] _ (by simp only [stepFrame, ho.ok, hl]) rfl⟩)))
    · exact .inl ⟨f, hf, keep f e hp⟩

/-- The gossiper has blacklisted the entity, or is about to because of a conflict proof. -/
def Caught (cf : GConf L) (c : CState) (a : Str) : Prop :=
  c.g.blacklist.has a = true ∨ (∃ g, Pending c (.storeBl g) ∧ g.type = .CON_INIT ∧ g.payload.p0 = a) ∨
  ∃ o, o.type = .CON_INIT ∧ o.payload.p0 = a ∧ o.verify cf.crypto = .ok ∧ ∃ f, Learns o f ∧ Pending c f

theorem Caught.act {a : Str} (hs : Sound cf c) (hi : ∀ k : GossipID, k.type = .CON_INIT → NodeInv cf c k) (hth : 0 < cf.crypto.threshold)
    (ha : Act cf c c') (h : Caught cf c a) : Caught cf c' a := by
  have hset : ∀ k : GossipID, k.type = .CON_INIT → k.entity = a → Settled c' k → Caught cf c' a := by
    rintro k hk rfl (h | ⟨g, h1, h2, h3⟩ | ⟨h, _⟩)
    · exact .inl h
    · exact .inr (.inl ⟨g, h1, h2, h3⟩)
    · exact absurd hk h
  rcases h with h | ⟨g, h1, h2, h3⟩ | ⟨o, ht, hp, hv, h⟩
  · exact hset ⟨[], .CON_INIT, a⟩ rfl rfl (Settled.act hs (.inl rfl) ha (.inl h))
  · exact hset ⟨[], .CON_INIT, a⟩ rfl rfl (Settled.act hs (.inl rfl) ha (.inr (.inl ⟨g, h1, h2, h3⟩)))
  · rcases learn_act hs (hi o.getID ht) hth (.inl ht) ⟨rfl, hv, .inl ht⟩ ha h with h | h
    · exact hset o.getID ht hp h
    · exact .inr (.inr ⟨o, ht, hp, hv, h⟩)

/-- A gossiper that holds a tree head and found another one in conflict with it comes to a conflict proof. -/
theorem initCon_act {o : GossipObj} (hs : Sound cf c) (ha : Act cf c c') (hk : k.type = .STH_INIT) (ho : Carrier cf k o)
    (hh : HeldKey c k) (h : Pending c (.initCon o)) : Pending c' (.initCon o) ∨ Caught cf c' k.entity := by
  have htype : o.type = .STH_INIT := (congrArg GossipID.type ho.id : o.type = k.type).trans hk
  cases ha with
  | idle h1 h2 h3 keep rev => exact .inl (keep _ h)
  | exec clk f hp hg keep next rev =>
    by_cases e : f = .initCon o
    · subst e
      right
      obtain ⟨v, hv⟩ := heldKey_get.1 hh
      obtain ⟨h1, h2, h3⟩ := hs.storage.objs _ _ _ hv
      have hgo : getObject c.g o.getID o.type = v := by
        have : (c.g.storage.objs o.type).get o.getID = some v := by rw [ho.id, htype, ← hk]; exact hv
        simp [getObject, this]
      refine .inr (.inr ⟨generateCON clk v o, rfl, ?_, generateCON_verify clk h3 ho.ok (.inl (h2.trans hk)) (.inl htype),
        .handle (generateCON clk v o), by simp [Learns],
        next [.handle (generateCON clk v o)] _ (by simp only [stepFrame, hgo]) rfl⟩)
      show v.payload.p0 = k.entity
      rw [← h1]; rfl
    · exact .inl (keep _ (Ne.symm e) h)

end

end CTng
