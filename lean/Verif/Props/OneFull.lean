import Verif.Props.FirstFull
/- C165: how many FULL objects for one statement a gossiper passes to its monitor. -/
set_option autoImplicit false

namespace CTng
variable {L : Lib}

/-- The object of a handler between the count of FULL objects and the posting to the owner
(gossiper/gossiper_server.go:369-372, gossiper/Interface.go:125-225). -/
def Frame.posting : Frame → Option GossipObj
  | .store g | .storeBl g | .storeNote g | .sendOwner g => some g
  | _ => none

/-- A handler goes on to post a FULL object only if it has just counted none for the statement. -/
theorem posting_new (cf : GConf L) (clk : Clock) (s : GState) (f : Frame) (hf : f.wt) (new : List Frame)
    (h : (stepFrame cf clk s f).2 = some new) (f' : Frame) (hf' : f' ∈ new) (g : GossipObj) (hg : f'.posting = some g)
    (ht : g.type.isFull = true) : f.posting = some g ∨ itemCount s g.getID g.type = 0 := by
  have aft : ∀ x b, f' ∈ afterStore x b → x = g := by
    intro x b ha
    unfold afterStore at ha
    split at ha <;> (try split at ha) <;> simp at ha <;> (try rcases ha with ha | ha) <;> (try rcases ha with ha | ha) <;>
      (try subst ha) <;> simpa [Frame.posting] using hg
  have key : Frame.store g ∈ new → itemCount s g.getID g.type = 0 := fun hm => store_full_new cf clk s f hf new h g hm ht
  cases f with
  | store x =>
    left
    simp only [stepFrame] at h
    split at h
    · cases h
    · simp at h; subst h; rw [aft _ _ hf']; rfl
    · split at h
      · simp at h; subst h; rw [aft _ _ hf']; rfl
      · simp at h; subst h; simp at hf'; subst hf'; simpa [Frame.posting] using hg
  | storeBl x =>
    simp only [stepFrame, Option.some.injEq] at h; subst h
    left; simp at hf'; subst hf'; simpa [Frame.posting] using hg
  | storeNote x =>
    simp only [stepFrame, Option.some.injEq] at h; subst h
    left
    rw [aft _ _ hf']; rfl
  | fullCount x =>
    right; apply key
    simp only [stepFrame, Option.some.injEq] at h; subst h
    split at hf' <;> simp at hf' <;> subst hf' <;> simp [Frame.posting] at hg
    subst hg; rename_i h0; simp [h0]
  | conCount x =>
    right; apply key
    simp only [stepFrame, Option.some.injEq] at h; subst h
    split at hf' <;> simp at hf'
    subst hf'; simp [Frame.posting] at hg
    subst hg; rename_i h0; simp [h0]
  | initMal x =>
    right; apply key
    simp only [stepFrame, Option.some.injEq] at h; subst h
    split at hf' <;> simp at hf' <;> subst hf' <;> simp [Frame.posting] at hg
    subst hg; rename_i h0; simp [h0]
  | initFrag x =>
    right; apply key
    simp only [stepFrame, Option.some.injEq] at h; subst h
    split at hf'
    · simp at hf'
    · rename_i h0
      rw [if_neg h0]
      split at hf' <;> simp at hf' <;> subst hf' <;> simp [Frame.posting] at hg
      subst hg; rename_i h1; simp [h1]
  | fragStore x =>
    simp only [stepFrame, Option.some.injEq] at h; subst h
    rcases List.mem_append.1 hf' with h1 | h1 <;> split at h1 <;> simp at h1 <;> subst h1 <;> simp [Frame.posting] at hg
  | recv n x =>
    simp only [stepFrame] at h
    split at h <;> simp at h
    subst h; simp at hf'; subst hf'; simp [Frame.posting] at hg
  | sign x =>
    simp only [stepFrame] at h
    split at h
    · cases h
    · simp at h; subst h; simp at hf'; subst hf'; simp [Frame.posting] at hg
  | fragGen x =>
    simp only [stepFrame] at h
    split at h
    · cases h
    · simp at h; subst h; simp at hf'; subst hf'; simp [Frame.posting] at hg
  | blk x =>
    simp only [stepFrame, Option.some.injEq] at h; subst h
    split at hf'
    · simp at hf'
    · split at hf' <;> simp at hf' <;> subst hf' <;> simp [Frame.posting] at hg
  | _ =>
    simp only [stepFrame, Option.some.injEq] at h; subst h
    first
      | (simp at hf'; done)
      | (simp at hf'; subst hf'; simp [Frame.posting] at hg; done)
      | (split at hf' <;> simp at hf' <;> subst hf' <;> simp [Frame.posting] at hg)

/-- The output is a posting to the owner of an object of that type for that statement. -/
def isOwnerOf (k : GossipID) (t : GType) : Out → Bool
  | .owner g => decide (g.getID = k ∧ g.type = t)
  | _ => false

/-- One action posts to the owner only the object of its own frame. -/
theorem owner_step (cf : GConf L) (clk : Clock) (s : GState) (f : Frame) (k : GossipID) (t : GType)
    (h : ∀ g, f.posting = some g → g.type = t → g.getID ≠ k) :
    (stepFrame cf clk s f).1.out.filter (isOwnerOf k t) = s.out.filter (isOwnerOf k t) := by
  obtain ⟨os, ho, e⟩ := stepFrame_out cf clk s f
  rw [e, List.filter_append]
  suffices os.filter (isOwnerOf k t) = [] by rw [this, List.append_nil]
  rw [List.filter_eq_nil_iff]
  intro y hy
  cases ho with
  | none => cases hy
  | owner g =>
    simp at hy; subst hy
    have := h g rfl
    simp only [isOwnerOf, decide_eq_true_eq]
    exact fun ⟨h1, h2⟩ => this h2 h1
  | announce g _ _ => obtain ⟨u, _, rfl⟩ := List.mem_map.1 hy; simp [isOwnerOf]
  | forward g g' _ _ => obtain ⟨u, _, rfl⟩ := List.mem_map.1 hy; simp [isOwnerOf]
  | _ => simp at hy; subst hy; simp [isOwnerOf]

/-- No handler has counted the FULL objects of the statement and is yet to post its own. -/
def NonePosting (k : GossipID) (t : GType) (c : CState) : Prop :=
  ∀ th ∈ c.threads, ∀ f ∈ th.frames, ∀ g, f.posting = some g → g.type = t → g.getID ≠ k

theorem one_full_cstep (cf : GConf L) (c : CState) (hc : CReach cf c) (k : GossipID) (t : GType) (ht : t.isFull = true)
    (o : GossipObj) (held : HeldAs c.g.storage k o t) (hn : NonePosting k t c) (e : Clock × CEvent) :
    (cstep cf c e).g.out.filter (isOwnerOf k t) = c.g.out.filter (isOwnerOf k t) ∧ NonePosting k t (cstep cf c e) := by
  obtain ⟨_, _, _, F⟩ := hc.main
  obtain ⟨clk, ev⟩ := e
  have spawn : ∀ (g : GState) (fs : List Frame) (b : Bool), (∀ f ∈ fs, f.posting = none) → NonePosting k t ⟨g, c.threads ++ [⟨fs, b⟩]⟩ := by
    intro g fs b h th hth f hf y hy
    rcases List.mem_append.1 hth with hth | hth
    · exact hn th hth f hf y hy
    · simp at hth; subst hth
      rw [h f hf] at hy; cases hy
  by_cases hcr : c.g.crashed = true
  · have : cstep cf c (clk, ev) = c := by unfold cstep; rw [if_pos hcr]
    rw [this]; exact ⟨rfl, hn⟩
  · cases ev with
    | recv n o => unfold cstep; rw [if_neg hcr]; exact ⟨rfl, spawn _ _ _ (by simp [Frame.posting])⟩
    | notify n o => unfold cstep; rw [if_neg hcr]; exact ⟨rfl, spawn _ _ _ (by simp [Frame.posting])⟩
    | request n o => unfold cstep; rw [if_neg hcr]; exact ⟨rfl, spawn _ _ _ (by simp [Frame.posting])⟩
    | periodic => unfold cstep; rw [if_neg hcr]; exact ⟨rfl, spawn _ _ _ (by simp [Frame.posting])⟩
    | fire i =>
      unfold cstep; rw [if_neg hcr]
      simp only
      split
      · exact ⟨rfl, hn⟩
      · exact ⟨rfl, spawn _ _ _ (by simp [Frame.posting])⟩
    | run i =>
      cases hth : c.threads[i]? with
      | none =>
        unfold cstep; rw [if_neg hcr]; simp only [hth]
        exact ⟨trivial, hn⟩
      | some th =>
        have hthm : th ∈ c.threads := List.mem_of_getElem? hth
        cases hf : th.frames with
        | nil =>
          unfold cstep; rw [if_neg hcr]; simp only [hth, stepThread, hf]
          refine ⟨trivial, ?_⟩
          intro t' ht'
          rcases List.mem_or_eq_of_mem_set ht' with h1 | h1
          · exact hn t' h1
          · rw [h1]; exact hn th hthm
        | cons f fs =>
          have hmem : f ∈ th.frames := by rw [hf]; simp
          have hwt := (F th hthm f hmem).1
          have hs := owner_step cf clk c.g f k t (hn th hthm f hmem)
          rw [cstep_run cf (by simpa using hcr) hth hf]
          rcases hst : stepFrame cf clk c.g f with ⟨s', new⟩
          rw [hst] at hs
          cases new with
          | some new =>
            refine ⟨hs, ?_⟩
            intro t' ht' f' hf' g hg hgt hgk
            rcases List.mem_or_eq_of_mem_set ht' with h1 | h1
            · exact hn t' h1 f' hf' g hg hgt hgk
            · subst h1
              rcases List.mem_append.1 hf' with h2 | h2
              · rcases posting_new cf clk c.g f hwt new (by rw [hst]) f' h2 g hg (by rw [hgt]; exact ht) with h0 | h0
                · exact hn th hthm f hmem g h0 hgt hgk
                · rw [hgk, hgt] at h0
                  rw [heldAs_iff] at held
                  have hh : (c.g.storage.objs t).has k = true := (GoMap.has_iff _ _).2 ⟨o, held⟩
                  unfold itemCount at h0
                  cases t <;> simp_all [GType.isFull]
              · exact hn th hthm f' (by rw [hf]; simp [h2]) g hg hgt hgk
          | none =>
            refine ⟨?_, ?_⟩
            · dsimp only; split <;> exact hs
            · intro t' ht'
              rcases List.mem_or_eq_of_mem_set ht' with h1 | h1
              · exact hn t' h1
              · subst h1; intro f hf; simp at hf

/-- C165, what holds: once a FULL object is held for a statement and no other handler is between its count of FULL objects and its posting to the
owner, nothing more of that type is posted to the owner for the statement before the next wipe, not even an object that does not
verify, in whatever order the goroutines run and whatever arrives. Missing: handlers that overtake each other between count and posting
(`C165_violated_overtaking`), and objects that do not verify before one that does is held (`C25_violated_invalid_full_reaches_owner`). -/
theorem C165_one_full_to_the_owner_partial (cf : GConf L) (c : CState) (hc : CReach cf c) (hw : NoWipe c) (k : GossipID) (t : GType)
    (ht : t.isFull = true) (o : GossipObj) (held : HeldAs c.g.storage k o t) (hn : NonePosting k t c)
    (h : List (Clock × CEvent)) (hp : ∀ e ∈ h, e.2 ≠ .periodic) :
    (crun cf c h).g.out.filter (isOwnerOf k t) = c.g.out.filter (isOwnerOf k t) ∧ HeldAs (crun cf c h).g.storage k o t := by
  induction h generalizing c with
  | nil => exact ⟨rfl, held⟩
  | cons e r ih =>
    obtain ⟨h1, h2⟩ := one_full_cstep cf c hc k t ht o held hn e
    have h4 := (first_full_cstep cf c hc hw k t ht o held
      (fun th hth g hg => hn th hth _ hg g rfl) e (hp e (by simp))).1
    obtain ⟨_, _, _, F⟩ := hc.main
    have h3 := (grown_cstep cf c (fun t ht f hf => (F t ht f hf).1) hw e (hp e (by simp))).2
    obtain ⟨h5, h6⟩ := ih (cstep cf c e) (hc.step e) h3 h4 h2 (fun e he => hp e (by simp [he]))
    exact ⟨by rw [← h1]; exact h5, h6⟩

/-- C165 fails: both handlers have counted when the first one stores, and the owner is sent two FULL objects for one
statement. -/
theorem C165_violated_overtaking :
    ((crun Ref.gconf CState.init ([(Ref.clk, .recv 10 (Ref.fullOf (go!"G1") (go!"G2"))),
      (Ref.clk, .recv 10 (Ref.fullOf (go!"G2") (go!"G3")))] ++ List.replicate 6 (Ref.clk, .run 1) ++
      List.replicate 20 (Ref.clk, .run 0) ++ List.replicate 20 (Ref.clk, .run 1))).g.out.filter
        (isOwnerOf ⟨go!"05", .STH_FULL, go!"L1"⟩ .STH_FULL)).length = 2 := by decide +kernel

/-- C165: the handlers of two FULL objects have started and one has posted; the other one has not counted yet, and the owner gets
only the first. -/
example (h : List (Clock × CEvent)) (hp : ∀ e ∈ h, e.2 ≠ .periodic) :
    let c := crun Ref.gconf CState.init ([(Ref.clk, .recv 10 (Ref.fullOf (go!"G1") (go!"G2"))),
      (Ref.clk, .recv 10 (Ref.fullOf (go!"G2") (go!"G3")))] ++ List.replicate 5 (Ref.clk, .run 1) ++ List.replicate 20 (Ref.clk, .run 0))
    (crun Ref.gconf c h).g.out.filter (isOwnerOf ⟨go!"05", .STH_FULL, go!"L1"⟩ .STH_FULL) = [.owner (Ref.fullOf (go!"G1") (go!"G2"))] := by
  intro c
  have hfr : c.threads.map (·.frames) = [[], [.fullCount (Ref.fullOf (go!"G2") (go!"G3"))]] := by decide +kernel
  have hall : ∀ th ∈ c.threads, th.frames = [] ∨ th.frames = [.fullCount (Ref.fullOf (go!"G2") (go!"G3"))] := by
    intro th hth
    have := List.mem_map_of_mem (f := (·.frames)) hth
    rw [hfr] at this
    simpa using this
  refine (C165_one_full_to_the_owner_partial Ref.gconf c ⟨_, rfl⟩ ?_ _ _ rfl (Ref.fullOf (go!"G1") (go!"G2"))
    (heldAs_iff.2 (by decide +kernel)) ?_ h hp).1.trans (by decide +kernel)
  · intro th hth hm
    rcases hall th hth with e | e <;> rw [e] at hm <;> simp at hm
  · intro th hth f hm g hg
    rcases hall th hth with e | e <;> rw [e] at hm <;> simp at hm
    subst hm; simp [Frame.posting] at hg

end CTng
