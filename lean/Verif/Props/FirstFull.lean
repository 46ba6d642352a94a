import Verif.Props.GossiperMisc
import Verif.Proofs.NetworkNode
/- C29 and C26 for concurrent handlers: what can replace a FULL object or sign for a blacklisted entity, and what cannot. -/
set_option autoImplicit false

namespace CTng
variable {L : Lib}

/-- A handler goes on to store a FULL object only if it has just counted none for the statement. -/
theorem store_full_new (cf : GConf L) (clk : Clock) (s : GState) (f : Frame) (hf : f.wt) (new : List Frame)
    (h : (stepFrame cf clk s f).2 = some new) (g : GossipObj) (hg : Frame.store g ∈ new) (ht : g.type.isFull = true) :
    itemCount s g.getID g.type = 0 := by
  have aft : ∀ x b, Frame.store g ∉ afterStore x b := by
    intro x b h; unfold afterStore at h; split at h <;> (try split at h) <;> simp at h
  cases f with
  | fullCount x =>
    simp only [stepFrame, Option.some.injEq] at h; subst h
    split at hg
    · simp at hg; subst hg; assumption
    · simp at hg
  | initFrag x =>
    simp only [stepFrame, Option.some.injEq] at h; subst h
    simp only [Frame.wt] at hf
    split at hg
    · simp at hg
    · split at hg <;> simp at hg
      subst hg; cases hx : g.type <;> simp_all [GType.isFull, GType.isInit]
  | initMal x =>
    simp only [stepFrame, Option.some.injEq] at h; subst h
    split at hg <;> simp at hg
    subst hg
    rcases hf with hf | hf <;> rw [hf] at ht <;> simp [GType.isFull] at ht
  | conCount x =>
    simp only [stepFrame, Option.some.injEq] at h; subst h
    split at hg <;> simp at hg
    subst hg
    simp only [Frame.wt] at hf
    rw [hf] at ht; simp [GType.isFull] at ht
  | fragStore x =>
    simp only [stepFrame, Option.some.injEq] at h; subst h
    rcases List.mem_append.1 hg with h1 | h1 <;> split at h1 <;> simp at h1
  | recv n x =>
    simp only [stepFrame] at h
    split at h <;> simp at h
    subst h; simp at hg
  | store x =>
    simp only [stepFrame] at h
    split at h
    · cases h
    · simp at h; subst h; exact absurd hg (aft _ _)
    · split at h
      · simp at h; subst h; exact absurd hg (aft _ _)
      · simp at h; subst h; simp at hg
  | storeNote x =>
    simp only [stepFrame, Option.some.injEq] at h; subst h; exact absurd hg (aft _ _)
  | sign x =>
    simp only [stepFrame] at h
    split at h
    · cases h
    · simp at h; subst h; simp at hg
  | fragGen x =>
    simp only [stepFrame] at h
    split at h
    · cases h
    · simp at h; subst h; simp at hg
  | blk x =>
    simp only [stepFrame, Option.some.injEq] at h; subst h
    split at hg
    · simp at hg
    · split at hg <;> simp at hg
  | _ =>
    simp only [stepFrame, Option.some.injEq] at h; subst h
    first
      | (simp at hg; done)
      | (split at hg <;> simp at hg)

/-- One action keeps a FULL object unless it wipes or stores one for the same statement. -/
theorem SStep.keeps {cf : GConf L} {s : GState} {f : Frame} {s' : Storage} (h : SStep cf s f s') (hf : f ≠ .wipe) (k : GossipID)
    (o : GossipObj) (t : GType) (hs : ∀ g, f = .store g → g.type = t → g.getID ≠ k) (held : HeldAs s.storage k o t) :
    HeldAs s' k o t := by
  rw [heldAs_iff] at held ⊢
  cases h with
  | same => exact held
  | payload n g _ _ _ => cases t <;> exact held
  | put g _ ht _ =>
    by_cases e : t = g.type
    · subst e
      rw [Storage.objs_putObj_same _ _ _ _ ht, GoMap.get_set_ne _ _ (fun h => hs g rfl rfl h.symm)]
      exact held
    · rw [Storage.objs_putObj_ne _ _ _ e]; exact held
  | frag g _ _ => simpa using held
  | wipe => exact absurd rfl hf

/-- No handler has counted the FULL objects of the statement and is yet to store its own. -/
def NonePast (k : GossipID) (t : GType) (c : CState) : Prop :=
  ∀ th ∈ c.threads, ∀ g, Frame.store g ∈ th.frames → g.type = t → g.getID ≠ k

theorem first_full_cstep (cf : GConf L) (c : CState) (hc : CReach cf c) (hw : NoWipe c) (k : GossipID) (t : GType) (ht : t.isFull = true)
    (o : GossipObj) (held : HeldAs c.g.storage k o t) (hn : NonePast k t c) (e : Clock × CEvent) (he : e.2 ≠ .periodic) :
    HeldAs (cstep cf c e).g.storage k o t ∧ NonePast k t (cstep cf c e) := by
  obtain ⟨_, _, _, F⟩ := hc.main
  obtain ⟨clk, ev⟩ := e
  have spawn : ∀ (g : GState) (fs : List Frame) (b : Bool), (∀ g, Frame.store g ∉ fs) → NonePast k t ⟨g, c.threads ++ [⟨fs, b⟩]⟩ := by
    intro g fs b h th hth x hx
    rcases List.mem_append.1 hth with hth | hth
    · exact hn th hth x hx
    · simp at hth; subst hth; exact absurd hx (h x)
  by_cases hcr : c.g.crashed = true
  · have : cstep cf c (clk, ev) = c := by unfold cstep; rw [if_pos hcr]
    rw [this]; exact ⟨held, hn⟩
  · cases ev with
    | recv n o => unfold cstep; rw [if_neg hcr]; exact ⟨held, spawn _ _ _ (by simp)⟩
    | notify n o => unfold cstep; rw [if_neg hcr]; exact ⟨held, spawn _ _ _ (by simp)⟩
    | request n o => unfold cstep; rw [if_neg hcr]; exact ⟨held, spawn _ _ _ (by simp)⟩
    | periodic => exact absurd rfl he
    | fire i =>
      unfold cstep; rw [if_neg hcr]
      simp only
      split
      · exact ⟨held, hn⟩
      · exact ⟨held, spawn _ _ _ (by simp)⟩
    | run i =>
      cases hth : c.threads[i]? with
      | none =>
        unfold cstep; rw [if_neg hcr]; simp only [hth]
        exact ⟨held, hn⟩
      | some th =>
        have hthm : th ∈ c.threads := List.mem_of_getElem? hth
        cases hf : th.frames with
        | nil =>
          unfold cstep; rw [if_neg hcr]; simp only [hth, stepThread, hf]
          refine ⟨held, ?_⟩
          intro t' ht'
          rcases List.mem_or_eq_of_mem_set ht' with h1 | h1
          · exact hn t' h1
          · rw [h1]; exact hn th hthm
        | cons f fs =>
          have hfw : f ≠ .wipe := fun e => hw th hthm (by rw [hf, e]; simp)
          have hwt := (F th hthm f (by rw [hf]; simp)).1
          have hs := (stepFrame_storage cf clk c.g f hwt).keeps hfw k o t
            (fun g e => hn th hthm g (by rw [hf, e]; simp)) held
          rw [cstep_run cf (by simpa using hcr) hth hf]
          rcases hst : stepFrame cf clk c.g f with ⟨s', new⟩
          rw [hst] at hs
          cases new with
          | some new =>
            refine ⟨hs, ?_⟩
            intro t' ht' g hg hgt hgk
            rcases List.mem_or_eq_of_mem_set ht' with h1 | h1
            · exact hn t' h1 g hg hgt hgk
            · subst h1
              rcases List.mem_append.1 hg with h2 | h2
              · have h0 := store_full_new cf clk c.g f hwt new (by rw [hst]) g h2 (by rw [hgt]; exact ht)
                rw [hgk, hgt] at h0
                rw [heldAs_iff] at held
                have hh : (c.g.storage.objs t).has k = true := (GoMap.has_iff _ _).2 ⟨o, held⟩
                unfold itemCount at h0
                cases t <;> simp_all [GType.isFull]
              · exact hn th hthm g (by rw [hf]; simp [h2]) hgt hgk
          | none =>
            refine ⟨?_, ?_⟩
            · dsimp only; split <;> exact hs
            · intro t' ht'
              rcases List.mem_or_eq_of_mem_set ht' with h1 | h1
              · exact hn t' h1
              · subst h1; intro g hg; simp at hg

/-- C29 under every schedule, what holds: a FULL object is replaced before the next wipe only by a handler that was, when the object
was already held, past its own count of FULL objects. If no such handler is under way, nothing that arrives afterwards replaces the
object, in whatever order the goroutines run. -/
theorem C29_overtaking_only_partial (cf : GConf L) (c : CState) (hc : CReach cf c) (hw : NoWipe c) (k : GossipID) (t : GType)
    (ht : t.isFull = true) (o : GossipObj) (held : HeldAs c.g.storage k o t)
    (hn : ∀ th ∈ c.threads, ∀ g, Frame.store g ∈ th.frames → g.type = t → g.getID ≠ k)
    (h : List (Clock × CEvent)) (hp : ∀ e ∈ h, e.2 ≠ .periodic) : HeldAs (crun cf c h).g.storage k o t := by
  induction h generalizing c with
  | nil => exact held
  | cons e r ih =>
    obtain ⟨h1, h2⟩ := first_full_cstep cf c hc hw k t ht o held hn e (hp e (by simp))
    obtain ⟨_, _, _, F⟩ := hc.main
    have h3 := (grown_cstep cf c (fun t ht f hf => (F t ht f hf).1) hw e (hp e (by simp))).2
    exact ih (cstep cf c e) (hc.step e) h3 h1 h2 (fun e he => hp e (by simp [he]))

/-- C29: the handlers of two FULL objects have started and one has stored; the other one has not counted yet and stores nothing,
whatever the schedule. -/
example (h : List (Clock × CEvent)) (hp : ∀ e ∈ h, e.2 ≠ .periodic) :
    let c := crun Ref.gconf CState.init ([(Ref.clk, .recv 10 (Ref.fullOf (go!"G1") (go!"G2"))),
      (Ref.clk, .recv 10 (Ref.fullOf (go!"G2") (go!"G3")))] ++ List.replicate 4 (Ref.clk, .run 1) ++ List.replicate 20 (Ref.clk, .run 0))
    HeldAs (crun Ref.gconf c h).g.storage ⟨go!"05", .STH_FULL, go!"L1"⟩ (Ref.fullOf (go!"G1") (go!"G2")) .STH_FULL := by
  intro c
  have hfr : c.threads.map (·.frames) = [[], [.fullBlk (Ref.fullOf (go!"G2") (go!"G3"))]] := by decide +kernel
  have hall : ∀ th ∈ c.threads, th.frames = [] ∨ th.frames = [.fullBlk (Ref.fullOf (go!"G2") (go!"G3"))] := by
    intro th hth
    have := List.mem_map_of_mem (f := (·.frames)) hth
    rw [hfr] at this
    simpa using this
  refine C29_overtaking_only_partial Ref.gconf c ⟨_, rfl⟩ ?_ _ _ rfl _ (heldAs_iff.2 (by decide +kernel)) ?_ h hp
  · intro th hth hm
    rcases hall th hth with e | e <;> rw [e] at hm <;> simp at hm
  · intro th hth g hm
    rcases hall th hth with e | e <;> rw [e] at hm <;> simp at hm

/-- A handler goes on to sign only if it has just looked at the blacklist. -/
theorem sign_new (cf : GConf L) (clk : Clock) (s : GState) (f : Frame) (new : List Frame)
    (h : (stepFrame cf clk s f).2 = some new) (g : GossipObj) (hg : Frame.sign g ∈ new) : s.blacklist.has g.payload.p0 = false := by
  have aft : ∀ x b, Frame.sign g ∉ afterStore x b := by
    intro x b h; unfold afterStore at h; split at h <;> (try split at h) <;> simp at h
  cases f with
  | signBlk x =>
    simp only [stepFrame, Option.some.injEq] at h; subst h
    split at hg
    · simp at hg
    · rename_i hb; simp at hg; subst hg; simpa [inBlacklist] using hb
  | initFrag x =>
    simp only [stepFrame, Option.some.injEq] at h; subst h
    split at hg
    · simp at hg
    · split at hg <;> simp at hg
  | fragStore x =>
    simp only [stepFrame, Option.some.injEq] at h; subst h
    rcases List.mem_append.1 hg with h1 | h1 <;> split at h1 <;> simp at h1
  | recv n x =>
    simp only [stepFrame] at h
    split at h <;> simp at h
    subst h; simp at hg
  | store x =>
    simp only [stepFrame] at h
    split at h
    · cases h
    · simp at h; subst h; exact absurd hg (aft _ _)
    · split at h
      · simp at h; subst h; exact absurd hg (aft _ _)
      · simp at h; subst h; simp at hg
  | storeNote x =>
    simp only [stepFrame, Option.some.injEq] at h; subst h; exact absurd hg (aft _ _)
  | sign x =>
    simp only [stepFrame] at h
    split at h
    · cases h
    · simp at h; subst h; simp at hg
  | fragGen x =>
    simp only [stepFrame] at h
    split at h
    · cases h
    · simp at h; subst h; simp at hg
  | blk x =>
    simp only [stepFrame, Option.some.injEq] at h; subst h
    split at hg
    · simp at hg
    · split at hg <;> simp at hg
  | _ =>
    simp only [stepFrame, Option.some.injEq] at h; subst h
    first
      | (simp at hg; done)
      | (split at hg <;> simp at hg)

/-- One action signs only what its own frame says. -/
theorem signed_step (cf : GConf L) (clk : Clock) (s : GState) (f : Frame) (o : GossipObj)
    (h : Out.signed o ∈ (stepFrame cf clk s f).1.out) : Out.signed o ∈ s.out ∨ ∃ g, f = .sign g ∧ o.payload = g.payload := by
  obtain ⟨os, ho, e⟩ := stepFrame_out cf clk s f
  rw [e] at h
  rcases List.mem_append.1 h with h | h
  · exact .inl h
  · right
    cases ho with
    | signed g f hf =>
      simp at h; subst h
      refine ⟨g, rfl, ?_⟩
      unfold generateFRAG at hf
      split at hf
      · cases hf
      · simp only [Option.some.injEq] at hf; subst hf; rfl
    | _ => simp at h

/-- No handler has passed the blacklist check of the entity and is yet to sign. -/
def NoneSigning (x : Str) (c : CState) : Prop := ∀ th ∈ c.threads, ∀ g, Frame.sign g ∈ th.frames → g.payload.p0 ≠ x

theorem blacklisted_cstep (cf : GConf L) (c : CState) (x : Str) (hb : c.g.blacklist.has x = true) (hn : NoneSigning x c)
    (e : Clock × CEvent) :
    (cstep cf c e).g.blacklist.has x = true ∧ NoneSigning x (cstep cf c e) ∧
    ∀ o, Out.signed o ∈ (cstep cf c e).g.out → o.payload.p0 = x → Out.signed o ∈ c.g.out := by
  obtain ⟨clk, ev⟩ := e
  have spawn : ∀ (g : GState) (fs : List Frame) (b : Bool), (∀ g, Frame.sign g ∉ fs) → NoneSigning x ⟨g, c.threads ++ [⟨fs, b⟩]⟩ := by
    intro g fs b h th hth y hy
    rcases List.mem_append.1 hth with hth | hth
    · exact hn th hth y hy
    · simp at hth; subst hth; exact absurd hy (h y)
  by_cases hcr : c.g.crashed = true
  · have : cstep cf c (clk, ev) = c := by unfold cstep; rw [if_pos hcr]
    rw [this]; exact ⟨hb, hn, fun _ h _ => h⟩
  · cases ev with
    | recv n o => unfold cstep; rw [if_neg hcr]; exact ⟨hb, spawn _ _ _ (by simp), fun _ h _ => h⟩
    | notify n o => unfold cstep; rw [if_neg hcr]; exact ⟨hb, spawn _ _ _ (by simp), fun _ h _ => h⟩
    | request n o => unfold cstep; rw [if_neg hcr]; exact ⟨hb, spawn _ _ _ (by simp), fun _ h _ => h⟩
    | periodic => unfold cstep; rw [if_neg hcr]; exact ⟨hb, spawn _ _ _ (by simp), fun _ h _ => h⟩
    | fire i =>
      unfold cstep; rw [if_neg hcr]
      simp only
      split
      · exact ⟨hb, hn, fun _ h _ => h⟩
      · exact ⟨hb, spawn _ _ _ (by simp), fun _ h _ => h⟩
    | run i =>
      cases hth : c.threads[i]? with
      | none =>
        unfold cstep; rw [if_neg hcr]; simp only [hth]
        exact ⟨hb, hn, fun _ h _ => h⟩
      | some th =>
        have hthm : th ∈ c.threads := List.mem_of_getElem? hth
        cases hf : th.frames with
        | nil =>
          unfold cstep; rw [if_neg hcr]; simp only [hth, stepThread, hf]
          refine ⟨hb, ?_, fun _ h _ => h⟩
          intro t' ht'
          rcases List.mem_or_eq_of_mem_set ht' with h1 | h1
          · exact hn t' h1
          · rw [h1]; exact hn th hthm
        | cons f fs =>
          have h1 := blacklist_step (cf := cf) clk c.g f x hb
          have h2 : ∀ o, Out.signed o ∈ (stepFrame cf clk c.g f).1.out → o.payload.p0 = x → Out.signed o ∈ c.g.out := by
            intro o ho hx
            rcases signed_step cf clk c.g f o ho with h | ⟨g, e, hp⟩
            · exact h
            · exact absurd (by rw [← hp]; exact hx) (hn th hthm g (by rw [hf, e]; simp))
          rw [cstep_run cf (by simpa using hcr) hth hf]
          rcases hst : stepFrame cf clk c.g f with ⟨s', new⟩
          rw [hst] at h1 h2
          cases new with
          | some new =>
            refine ⟨h1, ?_, h2⟩
            intro t' ht' g hg hx
            rcases List.mem_or_eq_of_mem_set ht' with h3 | h3
            · exact hn t' h3 g hg hx
            · subst h3
              rcases List.mem_append.1 hg with h4 | h4
              · have := sign_new cf clk c.g f new (by rw [hst]) g h4
                rw [hx, hb] at this; cases this
              · exact hn th hthm g (by rw [hf]; simp [h4]) hx
          | none =>
            refine ⟨?_, ?_, ?_⟩
            · dsimp only; split <;> exact h1
            · intro t' ht'
              rcases List.mem_or_eq_of_mem_set ht' with h3 | h3
              · exact hn t' h3
              · subst h3; intro g hg; simp at hg
            · dsimp only; split <;> exact h2

/-- C26 under every schedule, what holds of its second half: a statement of a blacklisted entity is signed only by a handler that had
passed its blacklist check before the entity was blacklisted. If no such handler is under way, nothing more is signed for the entity,
by no timer, in no later period and in whatever order the goroutines run. -/
theorem C26_overtaking_only_partial (cf : GConf L) (c : CState) (x : Str) (hb : c.g.blacklist.has x = true)
    (hn : ∀ th ∈ c.threads, ∀ g, Frame.sign g ∈ th.frames → g.payload.p0 ≠ x) (h : List (Clock × CEvent)) (o : GossipObj)
    (ho : Out.signed o ∈ (crun cf c h).g.out) (hx : o.payload.p0 = x) : Out.signed o ∈ c.g.out := by
  induction h generalizing c with
  | nil => exact ho
  | cons e r ih =>
    obtain ⟨h1, h2, h3⟩ := blacklisted_cstep cf c x hb hn e
    exact h3 o (ih (cstep cf c e) h1 h2 ho) hx

/-- C26: the second STH convicts L1 while the signing timer of the first is armed; whenever that timer fires, L1's statement is not
signed. -/
example (h : List (Clock × CEvent)) (o : GossipObj) (hx : o.payload.p0 = go!"L1") :
    let c := crun Ref.gconf CState.init ([(Ref.clk, .recv 10 Ref.sth)] ++ List.replicate 20 (Ref.clk, .run 0) ++
      [(Ref.clk, .recv 10 Ref.sth')] ++ List.replicate 20 (Ref.clk, .run 1))
    c.g.timers = [Ref.sth] ∧ Out.signed o ∉ (crun Ref.gconf c h).g.out := by
  intro c
  have hfr : c.threads.map (·.frames) = [[], []] := by decide +kernel
  have hout : c.g.out.all (fun e => match e with | .signed _ => false | _ => true) = true := by decide +kernel
  refine ⟨by decide +kernel, fun ho => ?_⟩
  have := C26_overtaking_only_partial Ref.gconf c (go!"L1") (by decide +kernel) (fun th hth g hg => ?_) h o ho hx
  · have := List.all_eq_true.1 hout _ this
    simp at this
  · have hm := List.mem_map_of_mem (f := (·.frames)) hth
    rw [hfr] at hm
    simp at hm
    rw [hm] at hg; simp at hg

end CTng
