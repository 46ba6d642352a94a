import Verif.Props.FirstFull
/- C163: quarantine of a blacklisted entity under every schedule. -/
set_option autoImplicit false

namespace CTng
variable {L : Lib}

/-- The object of a handler that is past its blacklist check (gossiper/gossiper_server.go:191-207 and 243, 284, 310) and may still
store it, sign it or send it. -/
def Frame.beyond : Frame → Option GossipObj
  | .initFull g | .initFrag g | .initMal g | .store g | .storeBl g | .storeNote g | .sendPeers g | .sendOwner g | .sign g
  | .conCount g | .fragFull g | .fragStore g | .fullBlk g | .fullCount g => some g
  | _ => none

/-- A handler gets past the blacklist check only by performing it. -/
theorem beyond_new (cf : GConf L) (clk : Clock) (s : GState) (f : Frame) (new : List Frame)
    (h : (stepFrame cf clk s f).2 = some new) (f' : Frame) (hf' : f' ∈ new) (g : GossipObj) (hg : f'.beyond = some g) :
    f.beyond = some g ∨ s.blacklist.has g.payload.p0 = false := by
  have aft : ∀ x b, f' ∈ afterStore x b → x = g := by
    intro x b ha
    unfold afterStore at ha
    split at ha <;> (try split at ha) <;> simp at ha <;> (try rcases ha with ha | ha) <;> (try rcases ha with ha | ha) <;>
      (try subst ha) <;> simpa [Frame.beyond] using hg
  cases f with
  | blk x =>
    simp only [stepFrame, Option.some.injEq] at h; subst h
    right
    split at hf'
    · simp at hf'
    · rename_i hb
      split at hf' <;> simp at hf' <;> subst hf' <;> simp [Frame.beyond] at hg <;> subst hg <;> simpa [inBlacklist] using hb
  | signBlk x =>
    simp only [stepFrame, Option.some.injEq] at h; subst h
    right
    split at hf'
    · simp at hf'
    · rename_i hb
      simp at hf'; subst hf'; simp [Frame.beyond] at hg; subst hg; simpa [inBlacklist] using hb
  | initFrag x =>
    simp only [stepFrame, Option.some.injEq] at h; subst h
    left
    split at hf'
    · simp at hf'
    · split at hf' <;> simp at hf' <;> subst hf' <;> simpa [Frame.beyond] using hg
  | fragStore x =>
    simp only [stepFrame, Option.some.injEq] at h; subst h
    left
    rcases List.mem_append.1 hf' with h1 | h1 <;> split at h1 <;> simp at h1 <;> subst h1 <;> simp_all [Frame.beyond]
  | recv n x =>
    simp only [stepFrame] at h
    split at h <;> simp at h
    subst h; simp at hf'; subst hf'; simp [Frame.beyond] at hg
  | store x =>
    left
    simp only [stepFrame] at h
    split at h
    · cases h
    · simp at h; subst h; rw [aft _ _ hf']; rfl
    · split at h
      · simp at h; subst h; rw [aft _ _ hf']; rfl
      · simp at h; subst h; simp at hf'; subst hf'; simpa [Frame.beyond] using hg
  | storeNote x =>
    simp only [stepFrame, Option.some.injEq] at h; subst h
    left
    rw [aft _ _ hf']; rfl
  | sign x =>
    simp only [stepFrame] at h
    split at h
    · cases h
    · simp at h; subst h; simp at hf'; subst hf'; simp [Frame.beyond] at hg
  | fragGen x =>
    simp only [stepFrame] at h
    split at h
    · cases h
    · simp at h; subst h; simp at hf'; subst hf'; simp [Frame.beyond] at hg
  | _ =>
    simp only [stepFrame, Option.some.injEq] at h; subst h
    first
      | (simp at hf'; done)
      | (simp at hf'; subst hf'; simp [Frame.beyond] at hg; done)
      | (simp at hf'; subst hf'; left; simpa [Frame.beyond] using hg)
      | (left; split at hf' <;> simp at hf' <;> subst hf' <;> simpa [Frame.beyond] using hg)
      | (left; split at hf' <;> simp at hf' <;> subst hf' <;> simp [Frame.beyond] at hg)
      | (split at hf' <;> simp at hf' <;> subst hf' <;> simp_all [Frame.beyond])

/-- No handler starts an answer to a payload request. -/
theorem request_new (cf : GConf L) (clk : Clock) (s : GState) (f : Frame) (new : List Frame)
    (h : (stepFrame cf clk s f).2 = some new) (m : Int) (n : Notification) : Frame.request m n ∉ new := by
  intro hf'
  have aft : ∀ x b, Frame.request m n ∉ afterStore x b := by
    intro x b h; unfold afterStore at h; split at h <;> (try split at h) <;> simp at h
  cases f with
  | blk x =>
    simp only [stepFrame, Option.some.injEq] at h; subst h
    split at hf'
    · simp at hf'
    · split at hf' <;> simp at hf'
  | initFrag x =>
    simp only [stepFrame, Option.some.injEq] at h; subst h
    split at hf'
    · simp at hf'
    · split at hf' <;> simp at hf'
  | fragStore x =>
    simp only [stepFrame, Option.some.injEq] at h; subst h
    rcases List.mem_append.1 hf' with h1 | h1 <;> split at h1 <;> simp at h1
  | recv n x =>
    simp only [stepFrame] at h
    split at h <;> simp at h
    subst h; simp at hf'
  | store x =>
    simp only [stepFrame] at h
    split at h
    · cases h
    · simp at h; subst h; exact aft _ _ hf'
    · split at h
      · simp at h; subst h; exact aft _ _ hf'
      · simp at h; subst h; simp at hf'
  | storeNote x =>
    simp only [stepFrame, Option.some.injEq] at h; subst h; exact aft _ _ hf'
  | sign x =>
    simp only [stepFrame] at h
    split at h
    · cases h
    · simp at h; subst h; simp at hf'
  | fragGen x =>
    simp only [stepFrame] at h
    split at h
    · cases h
    · simp at h; subst h; simp at hf'
  | _ =>
    simp only [stepFrame, Option.some.injEq] at h; subst h
    first
      | (simp at hf'; done)
      | (split at hf' <;> simp at hf')

/-- One action sends or signs only the object of its own frame, or answers a payload request. -/
theorem sent_step (cf : GConf L) (clk : Clock) (s : GState) (f : Frame) (o : GossipObj) (x : Out)
    (hx : x = .owner o ∨ x = .signed o ∨ ∃ u r, x = .peer u r (.obj o)) (h : x ∈ (stepFrame cf clk s f).1.out) :
    x ∈ s.out ∨ (∃ g, f.beyond = some g ∧ o.payload.p0 = g.payload.p0) ∨
    ∃ m n, f = .request m n ∧ x = .peer n.sender (go!"/gossip/rev_init") (.obj o) := by
  obtain ⟨os, ho, e⟩ := stepFrame_out cf clk s f
  rw [e] at h
  rcases List.mem_append.1 h with h | h
  · exact .inl h
  · right
    cases ho with
    | none => simp at h
    | signed g f hf =>
      left
      simp at h; subst h
      have : f = o := by rcases hx with h | h | ⟨u, r, h⟩ <;> cases h; rfl
      subst this
      refine ⟨g, rfl, ?_⟩
      unfold generateFRAG at hf
      split at hf
      · cases hf
      · simp only [Option.some.injEq] at hf; subst hf; rfl
    | full g o' _ => simp at h; subst h; rcases hx with h | h | ⟨u, r, h⟩ <;> cases h
    | owner g =>
      left
      simp at h; subst h
      have : g = o := by rcases hx with h | h | ⟨u, r, h⟩ <;> cases h; rfl
      subst this
      exact ⟨g, rfl, rfl⟩
    | announce g _ _ =>
      obtain ⟨u, _, h⟩ := List.mem_map.1 h
      subst h; rcases hx with h | h | ⟨u, r, h⟩ <;> cases h
    | forward g g' hg' _ =>
      left
      obtain ⟨u, _, h⟩ := List.mem_map.1 h
      subst h
      have : g' = o := by rcases hx with h | h | ⟨u, r, h⟩ <;> cases h; rfl
      subst this
      refine ⟨g, rfl, ?_⟩
      rw [hg']; split <;> rfl
    | ask n y => simp at h; subst h; rcases hx with h | h | ⟨u, r, h⟩ <;> cases h
    | answer n y o' _ _ =>
      right
      simp at h; subst h
      have : o' = o := by rcases hx with h | h | ⟨u, r, h⟩ <;> cases h; rfl
      subst this
      exact ⟨n, y, rfl, rfl⟩

/-- One action stores only the object of its own frame. -/
theorem SStep.stores {cf : GConf L} {s : GState} {f : Frame} {s' : Storage} (h : SStep cf s f s') (x : Str)
    (hf : ∀ g, f.beyond = some g → g.payload.p0 ≠ x) :
    (∀ k o t, HeldAs s' k o t → o.payload.p0 = x → HeldAs s.storage k o t) ∧
    (∀ k t o, o ∈ s'.fragList t k → o.payload.p0 = x → o ∈ s.storage.fragList t k) := by
  cases h with
  | same => exact ⟨fun _ _ _ h _ => h, fun _ _ _ h _ => h⟩
  | payload n g _ _ _ =>
    refine ⟨fun k o t h _ => ?_, fun k t o h _ => ?_⟩
    · rw [heldAs_iff] at h ⊢; cases t <;> exact h
    · cases t <;> exact h
  | put g _ ht _ =>
    refine ⟨fun k o t h hx => ?_, fun k t o h _ => by simpa using h⟩
    rw [heldAs_iff] at h ⊢
    by_cases e : t = g.type
    · subst e
      rw [Storage.objs_putObj_same _ _ _ _ ht, GoMap.get_set] at h
      split at h
      · cases h; exact absurd hx (hf _ rfl)
      · exact h
    · rw [Storage.objs_putObj_ne _ _ _ e] at h; exact h
  | frag g ht _ =>
    refine ⟨fun k o t h _ => ?_, fun k t o h hx => ?_⟩
    · rw [heldAs_iff] at h ⊢; simpa using h
    · by_cases e : t = g.type ∧ k = g.getID
      · obtain ⟨e1, e2⟩ := e
        subst e1; subst e2
        rw [Storage.fragList_appendFrag_same _ _ _ _ ht] at h
        rcases List.mem_append.1 h with h | h
        · exact h
        · simp at h; subst h; exact absurd hx (hf _ rfl)
      · rw [Storage.fragList_appendFrag_ne _ _ (by by_cases e1 : t = g.type; exact .inr (fun e2 => e ⟨e1, e2⟩); exact .inl e1)] at h
        exact h
  | wipe =>
    refine ⟨fun k o t h _ => ?_, fun k t o h _ => ?_⟩
    · rw [heldAs_iff] at h ⊢
      cases t <;> first | exact h | (simp [Storage.objs, Storage.init, GoMap.get_empty] at h)
    · cases t <;> simp [Storage.fragList, Storage.frags, Storage.init, GoMap.get_empty] at h

/-- No handler is past its blacklist check with an object that names the entity. -/
def NoneBeyond (x : Str) (c : CState) : Prop := ∀ th ∈ c.threads, ∀ f ∈ th.frames, ∀ g, f.beyond = some g → g.payload.p0 ≠ x

/-- A payload request of that sender is being answered or arrives. -/
def AskedBy (u : Str) (c : CState) (h : List (Clock × CEvent)) : Prop :=
  (∃ th ∈ c.threads, ∃ m n, Frame.request m n ∈ th.frames ∧ n.sender = u) ∨ ∃ e ∈ h, ∃ m n, e.2 = .request m n ∧ n.sender = u

/-- What the gossiper has done about the entity between two states: nothing but answers to payload requests. -/
structure Quarantined (x : Str) (c : CState) (h : List (Clock × CEvent)) (c' : CState) : Prop where
  blacklist : c'.g.blacklist.has x = true
  owner : ∀ o, o.payload.p0 = x → .owner o ∈ c'.g.out → .owner o ∈ c.g.out
  signed : ∀ o, o.payload.p0 = x → .signed o ∈ c'.g.out → .signed o ∈ c.g.out
  peers : ∀ u r o, o.payload.p0 = x → .peer u r (.obj o) ∈ c'.g.out →
    .peer u r (.obj o) ∈ c.g.out ∨ (r = go!"/gossip/rev_init" ∧ AskedBy u c h)
  held : ∀ k o t, o.payload.p0 = x → HeldAs c'.g.storage k o t → HeldAs c.g.storage k o t
  frags : ∀ k l t, FragsAt c'.g.storage k l t → ∀ o ∈ l, o.payload.p0 = x → ∃ l', FragsAt c.g.storage k l' t ∧ o ∈ l'

theorem Quarantined.of_same {x : Str} {c c' : CState} {h : List (Clock × CEvent)} (hb : c.g.blacklist.has x = true)
    (h1 : c'.g.blacklist = c.g.blacklist) (h2 : c'.g.out = c.g.out) (h3 : c'.g.storage = c.g.storage) : Quarantined x c h c' where
  blacklist := by rw [h1]; exact hb
  owner _ _ h := by rwa [h2] at h
  signed _ _ h := by rwa [h2] at h
  peers _ _ _ _ h := by rw [h2] at h; exact .inl h
  held _ _ _ _ h := by rwa [h3] at h
  frags k l t h o ho _ := ⟨l, by rwa [h3] at h, ho⟩

theorem fragsAt_of_mem {s : Storage} {t : GType} {k : GossipID} {o : GossipObj} (h : o ∈ s.fragList t k) :
    ∃ l, FragsAt s k l t ∧ o ∈ l := by
  unfold Storage.fragList at h
  cases hg : (s.frags t).get k with
  | none => rw [hg] at h; cases h
  | some l => rw [hg] at h; exact ⟨l, fragsAt_iff.2 hg, h⟩

theorem quarantine_cstep (cf : GConf L) (c : CState) (hc : CReach cf c) (x : Str) (hb : c.g.blacklist.has x = true) (hn : NoneBeyond x c)
    (e : Clock × CEvent) : Quarantined x c [e] (cstep cf c e) ∧ NoneBeyond x (cstep cf c e) ∧
    ∀ u, AskedBy u (cstep cf c e) [] → AskedBy u c [e] := by
  obtain ⟨_, _, _, F⟩ := hc.main
  obtain ⟨clk, ev⟩ := e
  have spawn : ∀ (g : GState) (fs : List Frame) (b : Bool), (∀ f ∈ fs, f.beyond = none) → NoneBeyond x ⟨g, c.threads ++ [⟨fs, b⟩]⟩ := by
    intro g fs b h th hth f hf y hy
    rcases List.mem_append.1 hth with hth | hth
    · exact hn th hth f hf y hy
    · simp at hth; subst hth
      rw [h f hf] at hy; cases hy
  have asked : ∀ (g : GState) (fs : List Frame) (b : Bool) (e : Clock × CEvent),
      (∀ m n, Frame.request m n ∈ fs → e.2 = .request m n) → ∀ u, AskedBy u ⟨g, c.threads ++ [⟨fs, b⟩]⟩ [] → AskedBy u c [e] := by
    rintro g fs b e h u (⟨th, hth, m, n, h1, h2⟩ | ⟨_, h, _⟩)
    · rcases List.mem_append.1 hth with hth | hth
      · exact .inl ⟨th, hth, m, n, h1, h2⟩
      · simp at hth; subst hth
        exact .inr ⟨e, by simp, m, n, h m n h1, h2⟩
    · cases h
  have self : ∀ (e : Clock × CEvent) u, AskedBy u c [] → AskedBy u c [e] := by
    rintro e u (h | ⟨_, h, _⟩)
    · exact .inl h
    · cases h
  by_cases hcr : c.g.crashed = true
  · have : cstep cf c (clk, ev) = c := by unfold cstep; rw [if_pos hcr]
    rw [this]; exact ⟨.of_same hb rfl rfl rfl, hn, self _⟩
  · cases ev with
    | recv n o =>
      unfold cstep; rw [if_neg hcr]
      exact ⟨.of_same hb rfl rfl rfl, spawn _ _ _ (by simp [Frame.beyond]), asked _ _ _ _ (by simp)⟩
    | notify n o =>
      unfold cstep; rw [if_neg hcr]
      exact ⟨.of_same hb rfl rfl rfl, spawn _ _ _ (by simp [Frame.beyond]), asked _ _ _ _ (by simp)⟩
    | request n o =>
      unfold cstep; rw [if_neg hcr]
      exact ⟨.of_same hb rfl rfl rfl, spawn _ _ _ (by simp [Frame.beyond]), asked _ _ _ _ (by simp_all)⟩
    | periodic =>
      unfold cstep; rw [if_neg hcr]
      exact ⟨.of_same hb rfl rfl rfl, spawn _ _ _ (by simp [Frame.beyond]), asked _ _ _ _ (by simp)⟩
    | fire i =>
      unfold cstep; rw [if_neg hcr]
      simp only
      split
      · exact ⟨.of_same hb rfl rfl rfl, hn, self _⟩
      · exact ⟨.of_same hb rfl rfl rfl, spawn _ _ _ (by simp [Frame.beyond]), asked _ _ _ _ (by simp)⟩
    | run i =>
      cases hth : c.threads[i]? with
      | none =>
        unfold cstep; rw [if_neg hcr]; simp only [hth]
        exact ⟨.of_same hb rfl rfl rfl, hn, self _⟩
      | some th =>
        have hthm : th ∈ c.threads := List.mem_of_getElem? hth
        have back : ∀ (g : GState) (fs : List Frame) (b : Bool) (e : Clock × CEvent),
            (∀ m n, Frame.request m n ∈ fs → Frame.request m n ∈ th.frames) → ∀ u, AskedBy u ⟨g, c.threads.set i ⟨fs, b⟩⟩ [] →
            AskedBy u c [e] := by
          rintro g fs b e h u (⟨t', ht', m, n, h1, h2⟩ | ⟨_, h, _⟩)
          · rcases List.mem_or_eq_of_mem_set ht' with h3 | h3
            · exact .inl ⟨t', h3, m, n, h1, h2⟩
            · subst h3; exact .inl ⟨th, hthm, m, n, h m n h1, h2⟩
          · cases h
        cases hf : th.frames with
        | nil =>
          unfold cstep; rw [if_neg hcr]; simp only [hth, stepThread, hf]
          refine ⟨.of_same hb rfl rfl rfl, ?_, ?_⟩
          · intro t' ht'
            rcases List.mem_or_eq_of_mem_set ht' with h1 | h1
            · exact hn t' h1
            · rw [h1]; exact hn th hthm
          · exact back c.g th.frames th.fatal _ (fun _ _ h => h)
        | cons f fs =>
          have hmem : f ∈ th.frames := by rw [hf]; simp
          have hwt := (F th hthm f hmem).1
          have hfx : ∀ g, f.beyond = some g → g.payload.p0 ≠ x := hn th hthm f hmem
          have hst := (stepFrame_storage cf clk c.g f hwt).stores x hfx
          have hbl := blacklist_step (cf := cf) clk c.g f x hb
          have hsent := sent_step cf clk c.g f
          have hnew := fun new h => beyond_new cf clk c.g f new h
          have hreq := fun new h => request_new cf clk c.g f new h
          have Q : ∀ (ts : List Thread), Quarantined x c [(clk, .run i)] ⟨(stepFrame cf clk c.g f).1, ts⟩ := by
            intro ts
            have key : ∀ o y, o.payload.p0 = x → (y = Out.owner o ∨ y = .signed o ∨ ∃ u r, y = .peer u r (.obj o)) →
                y ∈ (stepFrame cf clk c.g f).1.out → y ∈ c.g.out ∨
                  ∃ m n, f = .request m n ∧ y = .peer n.sender (go!"/gossip/rev_init") (.obj o) := by
              intro o y ho hy h
              rcases hsent o y hy h with h | ⟨g, h1, h2⟩ | h
              · exact .inl h
              · exact absurd (by rw [← h2]; exact ho) (hfx g h1)
              · exact .inr h
            refine ⟨hbl, ?_, ?_, ?_, ?_, ?_⟩
            · intro o ho h
              rcases key o _ ho (.inl rfl) h with h | ⟨m, n, _, h⟩
              · exact h
              · cases h
            · intro o ho h
              rcases key o _ ho (.inr (.inl rfl)) h with h | ⟨m, n, _, h⟩
              · exact h
              · cases h
            · intro u r o ho h
              rcases key o _ ho (.inr (.inr ⟨u, r, rfl⟩)) h with h | ⟨m, n, h1, h2⟩
              · exact .inl h
              · cases h2
                exact .inr ⟨rfl, .inl ⟨th, hthm, m, n, by rw [← h1]; exact hmem, rfl⟩⟩
            · intro k o t ho h; exact hst.1 k o t h ho
            · intro k l t h o ho hx
              exact fragsAt_of_mem (hst.2 k t o (by rw [h.fragList]; exact ho) hx)
          rw [cstep_run cf (by simpa using hcr) hth hf]
          rcases hs : stepFrame cf clk c.g f with ⟨s', new⟩
          rw [hs] at Q hnew hreq
          cases new with
          | some new =>
            refine ⟨Q _, ?_, ?_⟩
            · intro t' ht' f' hf' g hg hx
              rcases List.mem_or_eq_of_mem_set ht' with h1 | h1
              · exact hn t' h1 f' hf' g hg hx
              · subst h1
                rcases List.mem_append.1 hf' with h2 | h2
                · rcases hnew new rfl f' h2 g hg with h3 | h3
                  · exact hfx g h3 hx
                  · rw [hx, hb] at h3; cases h3
                · exact hn th hthm f' (by rw [hf]; simp [h2]) g hg hx
            · refine back s' (new ++ fs) th.fatal _ (fun m n h => ?_)
              rcases List.mem_append.1 h with h | h
              · exact absurd h (hreq new rfl m n)
              · rw [hf]; simp [h]
          | none =>
            refine ⟨?_, ?_, ?_⟩
            · have q := Q []
              dsimp only
              split <;> exact ⟨q.blacklist, q.owner, q.signed, q.peers, q.held, q.frags⟩
            · intro t' ht'
              rcases List.mem_or_eq_of_mem_set ht' with h1 | h1
              · exact hn t' h1
              · subst h1; intro f hf; simp at hf
            · exact back _ [] th.fatal _ (by simp)

/-- C163. Once an entity is blacklisted and no handler is past its blacklist check with an object that names it, the gossiper is done
with the entity, in every order of the goroutines, whatever arrives and across ends of periods: it stays blacklisted, no object naming
it goes to the owner or is signed, none is stored, and none goes to a peer other than in answer to a payload request of that peer. -/
theorem C163_quarantine_under_every_schedule (cf : GConf L) (c : CState) (hc : CReach cf c) (x : Str) (hb : c.g.blacklist.has x = true)
    (hn : NoneBeyond x c) (h : List (Clock × CEvent)) : Quarantined x c h (crun cf c h) := by
  induction h generalizing c with
  | nil => exact .of_same hb rfl rfl rfl
  | cons e r ih =>
    obtain ⟨q, h2, h3⟩ := quarantine_cstep cf c hc x hb hn e
    have p := ih (cstep cf c e) (hc.step e) q.blacklist h2
    have wide : ∀ u, AskedBy u c [e] → AskedBy u c (e :: r) := by
      rintro u (h | ⟨e', he', h⟩)
      · exact .inl h
      · simp at he'; subst he'; exact .inr ⟨e', by simp, h⟩
    refine ⟨p.blacklist, fun o ho h => q.owner o ho (p.owner o ho h), fun o ho h => q.signed o ho (p.signed o ho h), ?_,
      fun k o t ho h => q.held k o t ho (p.held k o t ho h), ?_⟩
    · intro u r' o ho h
      rcases p.peers u r' o ho h with h | ⟨h1, h4⟩
      · rcases q.peers u r' o ho h with h | ⟨h1, h4⟩
        · exact .inl h
        · exact .inr ⟨h1, wide u h4⟩
      · refine .inr ⟨h1, ?_⟩
        rcases h4 with h4 | ⟨e', he', h5⟩
        · exact wide u (h3 u (.inl h4))
        · exact .inr ⟨e', by simp [he'], h5⟩
    · intro k l t h o ho hx
      obtain ⟨l', h4, h5⟩ := p.frags k l t h o ho hx
      exact q.frags k l' t h4 o h5 hx

/-- C163: L1 has been convicted while a third handler for it, of a fragment, stands before its blacklist check and a signing timer is
armed; the fragment is neither stored nor forwarded, and nothing is sent to anybody, if nobody asks for payloads. -/
example (h : List (Clock × CEvent)) (hq : ∀ e ∈ h, ∀ m n, e.2 ≠ .request m n) (o : GossipObj) (ho : o.payload.p0 = go!"L1") :
    let c := crun Ref.gconf CState.init ([(Ref.clk, .recv 10 Ref.sth)] ++ List.replicate 20 (Ref.clk, .run 0) ++
      [(Ref.clk, .recv 10 (Ref.frag (go!"G2")))] ++ List.replicate 3 (Ref.clk, .run 1) ++
      [(Ref.clk, .recv 10 Ref.sth')] ++ List.replicate 20 (Ref.clk, .run 2))
    c.g.timers = [Ref.sth] ∧ (c.threads.map (·.frames)) = [[], [.blk (Ref.frag (go!"G2"))], []] ∧
    (∀ u r, .peer u r (.obj o) ∈ (crun Ref.gconf c h).g.out → .peer u r (.obj o) ∈ c.g.out) ∧
    (∀ k l t, FragsAt (crun Ref.gconf c h).g.storage k l t → o ∉ l) := by
  intro c
  have hfr : c.threads.map (·.frames) = [[], [.blk (Ref.frag (go!"G2"))], []] := by decide +kernel
  have hall : ∀ th ∈ c.threads, th.frames = [] ∨ th.frames = [.blk (Ref.frag (go!"G2"))] := by
    intro th hth
    have := List.mem_map_of_mem (f := (·.frames)) hth
    rw [hfr] at this
    simp at this
    rcases this with h | h | h
    · exact .inl h
    · exact .inr h
    · exact .inl h
  have hfe : c.g.storage.sthFrag.entries = [] ∧ c.g.storage.revFrag.entries = [] ∧ c.g.storage.accFrag.entries = [] := by decide +kernel
  have q := C163_quarantine_under_every_schedule Ref.gconf c ⟨_, rfl⟩ (go!"L1") (by decide +kernel) (by
    intro th hth f hm g hg
    rcases hall th hth with e | e <;> rw [e] at hm <;> simp at hm
    subst hm; simp [Frame.beyond] at hg) h
  refine ⟨by decide +kernel, hfr, ?_, ?_⟩
  · intro u r hm
    rcases q.peers u r o ho hm with h1 | ⟨_, ⟨th, hth, m, n, h1, _⟩ | ⟨e, he, m, n, h1, _⟩⟩
    · exact h1
    · rcases hall th hth with e | e <;> rw [e] at h1 <;> simp at h1
    · exact absurd h1 (hq e he m n)
  · intro k l t hl hm
    obtain ⟨l', h1, h2⟩ := q.frags k l t hl o hm ho
    cases h1 <;> rename_i h1 <;> simp [GoMap.get, hfe.1, hfe.2.1, hfe.2.2, GoMap.lookupL] at h1

end CTng
