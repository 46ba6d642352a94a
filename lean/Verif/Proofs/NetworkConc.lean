import Verif.Proofs.NetworkThreshold
import Verif.Proofs.NetworkPayload
/- One round at one gossiper with goroutines: what is still to be done, and on which goroutine. -/
set_option autoImplicit false

namespace CTng
variable {L : Lib}

/-! ### Goroutines -/

/-- What one event other than a crash does, in full. -/
inductive CAct (cf : GConf L) (c : CState) (e : Clock × CEvent) : CState → Prop
  | skip : CAct cf c e c
  | recv (n o) : e.2 = .recv n o → CAct cf c e ⟨c.g, c.threads ++ [⟨[.recv n o], false⟩]⟩
  | notify (n x) : e.2 = .notify n x → CAct cf c e ⟨c.g, c.threads ++ [⟨[.notify n x], false⟩]⟩
  | request (n x) : e.2 = .request n x → CAct cf c e ⟨c.g, c.threads ++ [⟨[.request n x], false⟩]⟩
  | periodic : e.2 = .periodic → CAct cf c e ⟨c.g, c.threads ++ [⟨[.save, .wipe], true⟩]⟩
  | fire (i o) : e.2 = .fire i → c.g.timers[i]? = some o →
      CAct cf c e ⟨{ c.g with timers := c.g.timers.eraseIdx i }, c.threads ++ [⟨[.signBlk o], true⟩]⟩
  | run (i t f fs new) : c.threads[i]? = some t → t.frames = f :: fs → (stepFrame cf e.1 c.g f).2 = some new →
      CAct cf c e ⟨(stepFrame cf e.1 c.g f).1, c.threads.set i { t with frames := new ++ fs }⟩
  | panic (i t f fs) : c.threads[i]? = some t → t.frames = f :: fs → (stepFrame cf e.1 c.g f).2 = none →
      CAct cf c e ⟨(stepFrame cf e.1 c.g f).1, c.threads.set i { t with frames := [] }⟩

theorem cstep_cact (cf : GConf L) (c : CState) (e : Clock × CEvent) (h' : (cstep cf c e).g.crashed = false) :
    CAct cf c e (cstep cf c e) := by
  obtain ⟨clk, ev⟩ := e
  unfold cstep at h' ⊢
  split at h'
  · rename_i hcr; rw [if_pos hcr]; exact .skip
  rename_i hcr
  rw [if_neg hcr]
  cases ev with
  | recv n o => exact .recv n o rfl
  | notify n o => exact .notify n o rfl
  | request n o => exact .request n o rfl
  | periodic => exact .periodic rfl
  | fire i =>
    simp only
    cases ht : c.g.timers[i]? with
    | none => exact .skip
    | some o => exact .fire i o rfl ht
  | run i =>
    simp only at h' ⊢
    cases ht : c.threads[i]? with
    | none => exact .skip
    | some t =>
      rw [ht] at h'
      simp only [stepThread] at h' ⊢
      cases hfr : t.frames with
      | nil =>
        simp only
        have hsame : c.threads.set i t = c.threads := by
          obtain ⟨hlt, h⟩ := List.getElem?_eq_some_iff.1 ht
          rw [← h]; exact List.set_getElem_self hlt
        rw [hsame]
        exact .skip
      | cons f fs =>
        rw [hfr] at h'
        simp only at h' ⊢
        rcases hst : stepFrame cf clk c.g f with ⟨s', new⟩
        rw [hst] at h'
        cases new with
        | some new =>
          have := CAct.run (cf := cf) (c := c) (e := (clk, CEvent.run i)) i t f fs new ht hfr (by simp only [hst])
          simp only [hst] at this
          exact this
        | none =>
          have := CAct.panic (cf := cf) (c := c) (e := (clk, CEvent.run i)) i t f fs ht hfr (by simp only [hst])
          simp only [hst] at this
          simp only at h' ⊢
          by_cases hfat : t.fatal = true
          · rw [if_pos hfat] at h'; cases h'
          · rw [if_neg hfat]; exact this

section
variable (cf : GConf L) (R : Round)

/-- A FULL object of the round. -/
structure GoodFull (o : GossipObj) : Prop where
  type : o.type = R.kind.full
  ok : o.verify cf.crypto = .ok
  pay : o.payload = R.pay

/-- Program points that run to their end without panic during the round. -/
def Smooth : Frame → Prop
  | .sendPeers _ | .sendOwner _ | .fullNote => True
  | .storeBl o | .storeNote o => o.type.isFull = true
  | .handle o | .blk o | .fullBlk o | .fullCount o | .store o => GoodFull cf R o
  | .fragGen g => g.type = R.kind.frag ∧ g.getID = R.key
  | _ => False

/-- The program point will be executed by some goroutine: only calm ones come before it. -/
def Under (c : CState) (f : Frame) : Prop := ∃ t ∈ c.threads, ∃ a r, t.frames = a ++ f :: r ∧ ∀ x ∈ a, Smooth cf R x

/-- Smooth program points of the state go on calmly. -/
def SmoothStep (clk : Clock) (c : CState) : Prop :=
  ∀ x, HasFrame c x → Smooth cf R x → ∃ new, (stepFrame cf clk c.g x).2 = some new ∧ ∀ y ∈ new, Smooth cf R y

/-- The program point has just been executed; what it left to do will be done. -/
def Exec (clk : Clock) (c : CState) (f : Frame) (c' : CState) : Prop :=
  c'.g = (stepFrame cf clk c.g f).1 ∧
  ∀ new, (stepFrame cf clk c.g f).2 = some new → ∀ a f' r, new = a ++ f' :: r → (∀ x ∈ a, Smooth cf R x) → Under cf R c' f'
end

section
variable {cf : GConf L} {R : Round} {c c' : CState} {e : Clock × CEvent} {f : Frame}

theorem Under.has (h : Under cf R c f) : HasFrame c f := by
  obtain ⟨t, ht, a, r, hf, _⟩ := h
  exact ⟨t, ht, by rw [hf]; simp⟩

theorem Under.append {g : GState} {ts : List Thread} (h : Under cf R c f) : Under cf R ⟨g, c.threads ++ ts⟩ f := by
  obtain ⟨t, ht, a, r, hf, hc⟩ := h
  exact ⟨t, List.mem_append_left _ ht, a, r, hf, hc⟩

theorem Under.new {g : GState} {b : Bool} {fs : List Frame} : Under cf R ⟨g, c.threads ++ [⟨f :: fs, b⟩]⟩ f :=
  ⟨⟨f :: fs, b⟩, by simp, [], fs, rfl, by simp⟩

/-- A program point that will be executed still will be, or has just been. -/
theorem Under.step (hC : SmoothStep cf R e.1 c) (h : Under cf R c f) (ha : CAct cf c e c') :
    Under cf R c' f ∨ Exec cf R e.1 c f c' := by
  cases ha with
  | skip => exact .inl h
  | recv n o _ => exact .inl h.append
  | notify n o _ => exact .inl h.append
  | request n o _ => exact .inl h.append
  | periodic _ => exact .inl h.append
  | fire i o _ _ => exact .inl h.append
  | run i t g fs new ht hfr hnew =>
    obtain ⟨u, hu, a, r, hf, hc⟩ := h
    have hlt : i < c.threads.length := (List.getElem?_eq_some_iff.1 ht).1
    have htm : t ∈ c.threads := List.mem_of_getElem? ht
    by_cases hut : u = t
    · subst hut
      rw [hfr] at hf
      cases a with
      | nil =>
        simp only [List.nil_append, List.cons.injEq] at hf
        obtain ⟨rfl, rfl⟩ := hf
        right
        refine ⟨rfl, ?_⟩
        intro new' hn' a f' r hsplit hca
        rw [hnew] at hn'; cases hn'
        refine ⟨_, List.mem_set hlt _, a, r ++ fs, ?_, hca⟩
        simp only [hsplit]; simp
      | cons b a =>
        simp only [List.cons_append, List.cons.injEq] at hf
        obtain ⟨rfl, rfl⟩ := hf
        left
        obtain ⟨new', hn', hcn⟩ := hC g ⟨u, htm, by rw [hfr]; simp⟩ (hc g (by simp))
        rw [hnew] at hn'; cases hn'
        refine ⟨_, List.mem_set hlt _, new ++ a, r, by simp, ?_⟩
        intro x hx
        rcases List.mem_append.1 hx with hx | hx
        · exact hcn x hx
        · exact hc x (by simp [hx])
    · left
      refine ⟨u, ?_, a, r, hf, hc⟩
      obtain ⟨j, hj⟩ := List.getElem?_of_mem hu
      have hij : i ≠ j := by rintro rfl; rw [ht] at hj; exact hut (Option.some.inj hj).symm
      refine List.mem_of_getElem? (i := j) ?_
      rw [List.getElem?_set, if_neg hij]; exact hj
  | panic i t g fs ht hfr hnew =>
    obtain ⟨u, hu, a, r, hf, hc⟩ := h
    have htm : t ∈ c.threads := List.mem_of_getElem? ht
    by_cases hut : u = t
    · subst hut
      rw [hfr] at hf
      cases a with
      | nil =>
        simp only [List.nil_append, List.cons.injEq] at hf
        obtain ⟨rfl, rfl⟩ := hf
        right
        exact ⟨rfl, fun new' hn' => by rw [hnew] at hn'; cases hn'⟩
      | cons b a =>
        simp only [List.cons_append, List.cons.injEq] at hf
        obtain ⟨rfl, rfl⟩ := hf
        obtain ⟨new', hn', _⟩ := hC g ⟨u, htm, by rw [hfr]; simp⟩ (hc g (by simp))
        rw [hnew] at hn'; cases hn'
    · left
      refine ⟨u, ?_, a, r, hf, hc⟩
      obtain ⟨j, hj⟩ := List.getElem?_of_mem hu
      have hij : i ≠ j := by rintro rfl; rw [ht] at hj; exact hut (Option.some.inj hj).symm
      refine List.mem_of_getElem? (i := j) ?_
      rw [List.getElem?_set, if_neg hij]; exact hj

/-- The next one after execution, when there is only one. -/
theorem Exec.next {clk : Clock} (h : Exec cf R clk c f c') {f' : Frame} (hn : (stepFrame cf clk c.g f).2 = some [f']) :
    Under cf R c' f' := h.2 _ hn [] f' [] rfl (by simp)

/-- The shared state after an event: the old one up to timers, or that after one program point of the state. -/
inductive GAct (cf : GConf L) (R : Round) (c : CState) (e : Clock × CEvent) (c' : CState) : Prop
  | same (h1 : c'.g.storage = c.g.storage) (h2 : c'.g.blacklist = c.g.blacklist) (h3 : c'.g.out = c.g.out)
  | exec (f : Frame) (hf : HasFrame c f) (hx : Exec cf R e.1 c f c')

theorem CAct.gact (ha : CAct cf c e c') : GAct cf R c e c' := by
  cases ha with
  | run i t g fs new ht hfr hnew =>
    refine .exec g ⟨t, List.mem_of_getElem? ht, by rw [hfr]; simp⟩ ⟨rfl, ?_⟩
    intro new' hn' a f' r hsplit hca
    rw [hnew] at hn'; cases hn'
    refine ⟨_, List.mem_set (List.getElem?_eq_some_iff.1 ht).1 _, a, r ++ fs, ?_, hca⟩
    simp only [hsplit]; simp
  | panic i t g fs ht hfr hnew =>
    refine .exec g ⟨t, List.mem_of_getElem? ht, by rw [hfr]; simp⟩ ⟨rfl, ?_⟩
    intro new' hn'; rw [hnew] at hn'; cases hn'
  | _ => exact .same rfl rfl rfl

/-- A program point after an event: an old one, the first of a new goroutine, or left by an executed one. -/
theorem CAct.frames (ha : CAct cf c e c') (h : HasFrame c' f) :
    HasFrame c f ∨ (∃ n o, e.2 = .recv n o ∧ f = .recv n o) ∨ (∃ n x, f = .notify n x) ∨ (∃ n x, f = .request n x) ∨
    (e.2 = .periodic ∧ (f = .save ∨ f = .wipe)) ∨ (∃ o ∈ c.g.timers, f = .signBlk o) ∨
    ∃ a new, HasFrame c a ∧ (stepFrame cf e.1 c.g a).2 = some new ∧ f ∈ new ∧ c'.g = (stepFrame cf e.1 c.g a).1 := by
  have hap : ∀ (g : GState) (fs : List Frame) (b : Bool), HasFrame ⟨g, c.threads ++ [⟨fs, b⟩]⟩ f → HasFrame c f ∨ f ∈ fs := by
    rintro g fs b ⟨t, ht, hf⟩
    rcases List.mem_append.1 ht with ht | ht
    · exact .inl ⟨t, ht, hf⟩
    · simp at ht; subst ht; exact .inr hf
  cases ha with
  | skip => exact .inl h
  | recv n o he =>
    rcases hap _ _ _ h with h | h
    · exact .inl h
    · simp at h; exact .inr (.inl ⟨n, o, he, h⟩)
  | notify n o he =>
    rcases hap _ _ _ h with h | h
    · exact .inl h
    · simp at h; exact .inr (.inr (.inl ⟨n, o, h⟩))
  | request n o he =>
    rcases hap _ _ _ h with h | h
    · exact .inl h
    · simp at h; exact .inr (.inr (.inr (.inl ⟨n, o, h⟩)))
  | periodic he =>
    rcases hap _ _ _ h with h | h
    · exact .inl h
    · simp at h; exact .inr (.inr (.inr (.inr (.inl ⟨he, h⟩))))
  | fire i o he ht =>
    rcases hap _ _ _ h with h | h
    · exact .inl h
    · simp at h; exact .inr (.inr (.inr (.inr (.inr (.inl ⟨o, List.mem_of_getElem? ht, h⟩)))))
  | run i t g fs new ht hfr hnew =>
    obtain ⟨u, hu, huf⟩ := h
    have htm := List.mem_of_getElem? ht
    rcases List.mem_or_eq_of_mem_set hu with h1 | h1
    · exact .inl ⟨u, h1, huf⟩
    · subst h1
      rcases List.mem_append.1 huf with h2 | h2
      · exact .inr (.inr (.inr (.inr (.inr (.inr ⟨g, new, ⟨t, htm, by rw [hfr]; simp⟩, hnew, h2, rfl⟩)))))
      · exact .inl ⟨t, htm, by rw [hfr]; simp [h2]⟩
  | panic i t g fs ht hfr hnew =>
    obtain ⟨u, hu, huf⟩ := h
    rcases List.mem_or_eq_of_mem_set hu with h1 | h1
    · exact .inl ⟨u, h1, huf⟩
    · subst h1; cases huf

/-- Timers after an event. -/
theorem CAct.timers (ha : CAct cf c e c') {g : GossipObj} (h : g ∈ c'.g.timers) : g ∈ c.g.timers ∨ HasFrame c (.arm g) := by
  have hex : ∀ f, HasFrame c f → c'.g = (stepFrame cf e.1 c.g f).1 → g ∈ c.g.timers ∨ HasFrame c (.arm g) := by
    intro f hf hg
    rw [hg] at h
    rcases stepFrame_timers cf e.1 c.g f with h1 | ⟨o, rfl, h1⟩
    · rw [h1] at h; exact .inl h
    · rw [h1] at h
      rcases List.mem_append.1 h with h | h
      · exact .inl h
      · simp at h; subst h; exact .inr hf
  cases ha with
  | fire i o he ht => exact .inl (List.mem_of_mem_eraseIdx h)
  | run i t f fs new ht hfr hnew => exact hex f ⟨t, List.mem_of_getElem? ht, by rw [hfr]; simp⟩ rfl
  | panic i t f fs ht hfr hnew => exact hex f ⟨t, List.mem_of_getElem? ht, by rw [hfr]; simp⟩ rfl
  | _ => exact .inl h

/-- An armed timer stays armed or starts its goroutine. -/
theorem CAct.timer_kept (ha : CAct cf c e c') {g : GossipObj} (h : g ∈ c.g.timers) :
    g ∈ c'.g.timers ∨ Under cf R c' (.signBlk g) := by
  have hex : ∀ f, c'.g = (stepFrame cf e.1 c.g f).1 → g ∈ c'.g.timers := by
    intro f hg
    rw [hg]
    rcases stepFrame_timers cf e.1 c.g f with h1 | ⟨o, _, h1⟩
    · rw [h1]; exact h
    · rw [h1]; exact List.mem_append_left _ h
  cases ha with
  | fire i o he ht =>
    rcases mem_eraseIdx_or ht h with h | h
    · exact .inl h
    · subst h; exact .inr .new
  | run i t f fs new ht hfr hnew => exact .inl (hex f rfl)
  | panic i t f fs ht hfr hnew => exact .inl (hex f rfl)
  | _ => exact .inl h

/-! ### What only grows between wipes -/

structure Mono (c c' : CState) : Prop where
  black : ∀ x, c.g.blacklist.has x = true → c'.g.blacklist.has x = true
  frags : ∀ t k, ∃ r, c'.g.storage.fragList t k = c.g.storage.fragList t k ++ r
  held : ∀ k : GossipID, (c.g.storage.objs k.type).has k = true → (c'.g.storage.objs k.type).has k = true
  out : ∀ x ∈ c.g.out, x ∈ c'.g.out

theorem frags_sstep {s : GState} {f : Frame} {st : Storage} (h : SStep cf s f st) (hw : f ≠ .wipe) (t : GType) (k : GossipID) :
    ∃ r, st.fragList t k = s.storage.fragList t k ++ r := by
  cases h with
  | same => exact ⟨[], by simp⟩
  | payload n g _ _ _ => exact ⟨[], by simp only [List.append_nil]; cases t <;> rfl⟩
  | put g _ _ _ => exact ⟨[], by simp⟩
  | frag g hg _ =>
    by_cases e : t = g.type ∧ k = g.getID
    · obtain ⟨e1, e2⟩ := e
      exact ⟨[g], by rw [e1, e2, Storage.fragList_appendFrag_same _ _ _ _ hg]⟩
    · have e' : t ≠ g.type ∨ k ≠ g.getID := by by_cases h1 : t = g.type <;> simp_all
      exact ⟨[], by rw [Storage.fragList_appendFrag_ne _ _ e']; simp⟩
  | wipe => exact absurd rfl hw

theorem CAct.mono (hs : Sound cf c) (hw : ¬ HasFrame c .wipe) (ha : CAct cf c e c') : Mono c c' := by
  cases ha.gact (R := ⟨.sth, [], ⟨[], [], []⟩⟩) with
  | same h1 h2 h3 =>
    exact ⟨fun x h => by rw [h2]; exact h, fun t k => ⟨[], by rw [h1]; simp⟩, fun k h => by rw [h1]; exact h,
      fun x h => by rw [h3]; exact h⟩
  | exec f hf hx =>
    have hg := hx.1
    have hS := stepFrame_storage cf e.1 c.g f (hs.wt f hf)
    have hfw : f ≠ .wipe := by rintro rfl; exact hw hf
    refine ⟨fun x h => ?_, fun t k => ?_, fun k h => ?_, fun x h => ?_⟩
    · rw [hg]; exact blacklist_step e.1 c.g f x h
    · rw [hg]; exact frags_sstep hS hfw t k
    · rw [hg]; exact held_sstep hS (.inl hfw) h
    · obtain ⟨o, _, ho⟩ := stepFrame_out cf e.1 c.g f
      rw [hg, ho]; exact List.mem_append_left _ h

theorem Mono.length (h : Mono c c') {t : GType} {k : GossipID} {n : Int} (hl : n ≤ ((c.g.storage.fragList t k).length : Int)) :
    n ≤ ((c'.g.storage.fragList t k).length : Int) := by
  obtain ⟨r, e⟩ := h.frags t k
  rw [e, List.length_append]; push_cast; omega

theorem Mono.arrived (h : Mono c c') {x : Str} {t : GType} {k : GossipID} {σ : Sig2} (ha : Arrived cf x t k σ c.g) :
    Arrived cf x t k σ c'.g := by
  rcases ha with ha | ha | ⟨f, hf, hσ⟩
  · exact .inl (h.black x ha)
  · exact .inr (.inl (h.length ha))
  · obtain ⟨r, e⟩ := h.frags t k
    exact .inr (.inr ⟨f, by rw [e]; simp [hf], hσ⟩)

theorem Mono.hasFull (h : Mono c c') (hs : Sound cf c) (hs' : Sound cf c') {t : GType} {x : Str} (hf : HasFull c.g t x) :
    HasFull c'.g t x := by
  obtain ⟨k, o, ho, hp⟩ := hf
  obtain ⟨h1, h2, _⟩ := hs.storage.objs _ _ _ ho
  have hkt : k.type = t := by rw [← h1]; exact h2
  have := h.held k (by rw [hkt]; exact (GoMap.has_iff _ _).2 ⟨o, ho⟩)
  rw [hkt] at this
  obtain ⟨o', ho'⟩ := (GoMap.has_iff _ _).1 this
  obtain ⟨h3, _, _⟩ := hs'.storage.objs _ _ _ ho'
  refine ⟨k, o', ho', ?_⟩
  have e1 : o'.payload.p0 = k.entity := congrArg GossipID.entity h3
  have e2 : o.payload.p0 = k.entity := congrArg GossipID.entity h1
  rw [e1, ← e2]; exact hp

end
end CTng
