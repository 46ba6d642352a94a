import Verif.Proofs.NetworkConcNode
/- The invariant of one gossiper with goroutines during one round is kept. -/
set_option autoImplicit false

namespace CTng
variable {L : Lib} {cf : GConf L} {pub : L.BlsSec → L.BlsPub} {R : Round} {c c' : CState} {e : Clock × CEvent}

/-- What is known about a step during the round. -/
structure Step (cf : GConf L) (pub : L.BlsSec → L.BlsPub) (R : Round) (c : CState) (e : Clock × CEvent) (c' : CState) : Prop where
  env : Env cf pub R
  inv : CNode cf pub R c
  s : Sound cf c
  s' : Sound cf c'
  act : CAct cf c e c'

theorem Step.mono (h : Step cf pub R c e c') : Mono c c' := h.act.mono h.s h.inv.noWipe
theorem Step.calm (h : Step cf pub R c e c') : SmoothStep cf R e.1 c := h.inv.calm h.env h.s e.1
theorem Step.under (h : Step cf pub R c e c') {f : Frame} (hu : Under cf R c f) : Under cf R c' f ∨ Exec cf R e.1 c f c' :=
  hu.step h.calm h.act

/-! ### FULL objects -/

theorem hasFull_of_has {s : GState} (hI : StorageInv cf s.storage) {o : GossipObj} (hg : GoodFull cf R o)
    (h : (s.storage.objs R.kind.full).has o.getID = true) : HasFull s R.kind.full R.pay.p0 := by
  obtain ⟨o', ho'⟩ := (GoMap.has_iff _ _).1 h
  refine ⟨_, o', ho', ?_⟩
  have h1 : o'.payload.p0 = o.payload.p0 := congrArg GossipID.entity (hI.objs _ _ _ ho').1
  rw [h1, hg.pay]

theorem GoodFull.isFull {o : GossipObj} (hg : GoodFull cf R o) : o.type.isFull = true := by rw [hg.type]; exact R.kind.full_isFull

theorem FullDue.step (h : Step cf pub R c e c') (hd : FullDue cf R c)
    (hl : cf.crypto.threshold ≤ ((c.g.storage.fragList R.kind.frag R.key).length : Int)) : FullDue cf R c' := by
  rcases hd with hd | hd | ⟨f, hf, hu⟩
  · exact .inl (h.mono.black _ hd)
  · exact .inr (.inl (h.mono.hasFull h.s h.s' hd))
  · rcases h.under hu with hu' | hx
    · exact .inr (.inr ⟨f, hf, hu'⟩)
    · have hheld : ∀ o, GoodFull cf R o → (c.g.storage.objs R.kind.full).has o.getID = true → FullDue cf R c' :=
        fun o ho hh => .inr (.inl (h.mono.hasFull h.s h.s' (hasFull_of_has h.s.storage ho hh)))
      have hbl : ∀ o : GossipObj, GoodFull cf R o → inBlacklist c.g o.payload.p0 = true → FullDue cf R c' := by
        intro o ho hb
        refine .inl (h.mono.black _ ?_)
        rw [ho.pay] at hb; exact hb
      have go : ∀ o f', GoodFull cf R o → (f' = Frame.handle o ∨ f' = .blk o ∨ f' = .fullBlk o ∨ f' = .fullCount o ∨ f' = .store o) →
          (stepFrame cf e.1 c.g f).2 = some [f'] → FullDue cf R c' :=
        fun o f' ho h1 h2 => .inr (.inr ⟨f', .inr ⟨o, ho, h1⟩, hx.next h2⟩)
      rcases hf with ⟨g, ht, hid, rfl⟩ | ⟨o, ho, rfl | rfl | rfl | rfl | rfl⟩
      · obtain ⟨o, ho, hst⟩ := gen_full h.env h.inv.ok h.s hl e.1 ht hid
        exact go o _ ho (.inl rfl) hst
      · cases hdup : dupCheck c.g o with
        | true =>
          have := dupCheck_held (R.kind.full_isObj ▸ ho.type ▸ rfl) hdup
          rw [ho.type] at this
          exact hheld o ho this
        | false => exact go o (.blk o) ho (by simp) (by simp [stepFrame, hdup])
      · cases hb : inBlacklist c.g o.payload.p0 with
        | true => exact hbl o ho hb
        | false =>
          refine go o (.fullBlk o) ho (by simp) ?_
          have := ho.isFull
          simp only [stepFrame, hb]
          cases ht : o.type <;> simp_all [GType.isFull]
      · cases hb : inBlacklist c.g o.payload.p0 with
        | true => exact hbl o ho hb
        | false => exact go o (.fullCount o) ho (by simp) (by simp [stepFrame, hb])
      · by_cases h0 : itemCount c.g o.getID o.type = 0
        · exact go o (.store o) ho (by simp) (by simp [stepFrame, h0])
        · refine hheld o ho ?_
          cases hh : (c.g.storage.objs R.kind.full).has o.getID with
          | true => rfl
          | false =>
            refine absurd ?_ h0
            have hf := ho.isFull
            rw [← ho.type] at hh
            unfold itemCount
            cases ht : o.type <;> rw [ht] at hf hh <;> simp_all [GType.isFull]
      · have hobj : o.type.isObj = true := by rw [ho.type]; exact R.kind.full_isObj
        rcases hlk : storeLocked { c.g with timerlist := c.g.timerlist ++ [e.1.second] } o with ⟨s1, b⟩
        rcases storage_storeLocked hobj hlk with ⟨rfl, _, hdp⟩ | ⟨rfl, h1, _⟩
        · have hdp' : dupCheck c.g o = true := (dupCheck_congr rfl o).trans hdp
          have := dupCheck_held hobj hdp'
          rw [ho.type] at this
          exact hheld o ho this
        · refine .inr (.inl (hasFull_of_has h.s'.storage ho ?_))
          have hst : stepFrame cf e.1 c.g (.store o) = (s1, some [.storeBl o]) := by simp only [stepFrame, ho.ok, hlk]
          rw [hx.1, hst, h1]
          simp only
          rw [← ho.type, Storage.objs_putObj_same _ _ _ _ hobj]
          simp

theorem SentDue.step (h : Step cf pub R c e c') {o : GossipObj} (ht : o.type = R.kind.full) (hp : o.payload.p0 = R.pay.p0)
    (hd : SentDue cf R c o) : SentDue cf R c' o := by
  have hf : o.type.isFull = true := by rw [ht]; exact R.kind.full_isFull
  rcases hd with hd | ⟨hb, hd⟩
  · rcases h.under hd with hu | hx
    · exact .inl hu
    · refine .inr ⟨?_, .inr (.inl (hx.next rfl))⟩
      intro hk
      rw [hx.1]
      have hty : o.type = .ACC_FULL := by rw [ht, hk]; rfl
      have : (stepFrame cf e.1 c.g (.storeBl o)).1 = addBlacklist c.g o.payload.p0 := by
        simp only [stepFrame, storeBlacklist, hty]
      rw [this, ← hp]
      exact addBlacklist_self _ _
  · refine .inr ⟨fun hk => h.mono.black _ (hb hk), ?_⟩
    rcases hd with hd | hd | hd
    · exact .inl (h.mono.out _ hd)
    · rcases h.under hd with hu | hx
      · exact .inr (.inl hu)
      · exact .inr (.inr (hx.2 _ rfl [] _ [.fullNote] (afterStore_full true hf) (by simp)))
    · rcases h.under hd with hu | hx
      · exact .inr (.inr hu)
      · left; rw [hx.1]; simp [stepFrame, sendToMonitor, GState.emit]

/-! ### Fragments -/

theorem frag_fullcount_zero (hI : StorageInv cf c.g.storage) {q : GossipObj} (ht : q.type.isFrag = true) :
    itemCount c.g q.getID (fullTypeOf q.type) = 0 := by
  have hh : (c.g.storage.objs (fullTypeOf q.type)).has q.getID = false := by
    cases h2 : (c.g.storage.objs (fullTypeOf q.type)).has q.getID with
    | false => rfl
    | true =>
      obtain ⟨v, hv⟩ := (GoMap.has_iff _ _).1 h2
      obtain ⟨h3, h4, _⟩ := hI.objs _ _ _ hv
      have h5 : v.type = q.type := congrArg GossipID.type h3
      rw [h5] at h4
      clear h2 hv h3 h5
      revert h4 ht
      cases q.type <;> simp [GType.isFrag, fullTypeOf]
  unfold itemCount
  cases h' : q.type <;> rw [h'] at ht hh <;> simp_all [GType.isFrag, fullTypeOf]

theorem FragDue.step (h : Step cf pub R c e c') {σ : Sig2} (hd : FragDue cf R σ c) : FragDue cf R σ c' := by
  rcases hd with hd | ⟨f, hf, hu⟩
  · exact .inl (h.mono.arrived hd)
  · rcases h.under hu with hu' | hx
    · exact .inr ⟨f, hf, hu'⟩
    · obtain ⟨q, hσ, ht, hid, hq⟩ := hf
      have hfr : q.type.isFrag = true := by rw [ht]; exact R.kind.frag_isFrag
      have hp : q.payload.p0 = R.pay.p0 := congrArg GossipID.entity hid
      have go : ∀ f', ((∃ n, f' = Frame.recv n q) ∨ f' = .recon q ∨ f' = .handle q ∨ f' = .blk q ∨ f' = .fragFull q ∨ f' = .fragStore q) →
          (stepFrame cf e.1 c.g f).2 = some [f'] → FragDue cf R σ c' :=
        fun f' h1 h2 => .inr ⟨f', ⟨q, hσ, ht, hid, h1⟩, hx.next h2⟩
      rcases hq with ⟨n, rfl⟩ | rfl | rfl | rfl | rfl | rfl
      · refine go (.recon q) (.inr (.inl rfl)) ?_
        have : ¬ (n > cf.optThreshold ∧ q.type = .REV_INIT) := by
          rintro ⟨_, h2⟩; rw [h2] at hfr; cases hfr
        simp only [stepFrame, if_neg this]
      · refine go (.handle q) (.inr (.inr (.inl rfl))) ?_
        have : ¬ (cf.optMode = true ∧ q.type = .REV_FRAG) := by
          rintro ⟨h1, h2⟩
          have hk : R.kind = .rev := by rw [ht] at h2; cases hk : R.kind <;> rw [hk] at h2 <;> simp [Kind.frag] at h2
          rw [(h.env.signer.unopt hk).1] at h1; cases h1
        simp only [stepFrame, if_neg this]
      · cases hdup : dupCheck c.g q with
        | true =>
          obtain ⟨v, hv, hvs⟩ := (dupCheck_frag hfr).1 hdup
          refine .inl (h.mono.arrived (.inr (.inr ⟨v, ?_, hvs.trans hσ⟩)))
          rw [ht, hid] at hv; exact hv
        | false => exact go (.blk q) (by simp) (by simp [stepFrame, hdup])
      · cases hb : inBlacklist c.g q.payload.p0 with
        | true => rw [hp] at hb; exact .inl (h.mono.arrived (.inl hb))
        | false =>
          refine go (.fragFull q) (by simp) ?_
          simp only [stepFrame, hb, ht]
          cases R.kind <;> simp [Kind.frag]
      · refine go (.fragStore q) (by simp) ?_
        simp [stepFrame, frag_fullcount_zero h.s.storage hfr]
      · left
        by_cases hl : ((c.g.storage.fragList q.type q.getID).length : Int) < cf.crypto.threshold
        · refine .inr (.inr ⟨q, ?_, hσ⟩)
          rw [hx.1]
          simp only [stepFrame, readAndStore_frag cf hfr, if_pos hl, ← ht, ← hid, Storage.fragList_appendFrag_same _ _ _ _ hfr]
          simp
        · refine h.mono.arrived (.inr (.inl ?_))
          rw [ht, hid] at hl; omega

/-! ### Signing -/

theorem OwnDue.step (h : Step cf pub R c e c') (hd : OwnDue cf R c) : OwnDue cf R c' := by
  rcases hd with hd | ⟨g, hg, hid⟩ | ⟨f, hf, hu⟩ | ⟨σ, hσ, hd⟩
  · exact .inl (h.mono.black _ hd)
  · rcases h.act.timer_kept (R := R) hg with h1 | h1
    · exact .inr (.inl ⟨g, h1, hid⟩)
    · exact .inr (.inr (.inl ⟨_, ⟨g, hid, by simp⟩, h1⟩))
  · have hok := h.inv.frames f hu.has
    have hwt := h.s.wt f hu.has
    rcases h.under hu with hu' | hx
    · exact .inr (.inr (.inl ⟨f, hf, hu'⟩))
    · obtain ⟨g, hid, hq⟩ := hf
      have hty : g.type = R.kind.init := congrArg GossipID.type hid
      have hp0 : g.payload.p0 = R.pay.p0 := congrArg GossipID.entity hid
      rcases hq with rfl | rfl | rfl | rfl | rfl
      · exact .inr (.inr (.inl ⟨_, ⟨g, hid, by simp⟩, hx.next rfl⟩))
      · by_cases hk : R.kind = .acc
        · refine .inr (.inr (.inl ⟨.signBlk g, ⟨g, hid, by simp⟩, hx.next ?_⟩))
          simp [stepFrame, afterStore, hty, hk, Kind.init]
        · refine .inr (.inr (.inl ⟨.arm g, ⟨g, hid, by simp⟩, hx.2 [.sendPeers g, .sendOwner g, .arm g] ?_ [.sendPeers g, .sendOwner g] _ [] rfl ?_⟩))
          · cases hk' : R.kind <;> simp_all [stepFrame, afterStore, Kind.init]
          · intro x hx; simp at hx; rcases hx with rfl | rfl <;> trivial
      · refine .inr (.inl ⟨g, ?_, hid⟩)
        rw [hx.1]; simp [stepFrame]
      · cases hb : inBlacklist c.g g.payload.p0 with
        | true => rw [hp0] at hb; exact .inl (h.mono.black _ hb)
        | false => exact .inr (.inr (.inl ⟨.sign g, ⟨g, hid, by simp⟩, hx.next (by simp [stepFrame, hb])⟩))
      · have hpay := key0_payload (hok hty) hid
        obtain ⟨q, hq, hfr, hσ, _⟩ := own_signed h.env.json h.env.bls h.env.signer.toKeyed hid hpay
        have e1 : q.type = R.kind.frag := by rw [generateFRAG_type hq, hty]; cases R.kind <;> rfl
        have e2 : q.getID = R.key := by
          have hper : g.period = R.period := congrArg GossipID.period hid
          have e3 : q.payload = R.pay ∧ q.period = R.period := by
            unfold generateFRAG at hq
            split at hq
            · cases hq
            · cases hq; exact ⟨hpay, hper⟩
          simp only [GossipObj.getID, e1, e3.1, e3.2, Round.key]
        refine .inr (.inr (.inr ⟨q.sig, hσ, .inr ⟨.handle q, ⟨q, rfl, e1, e2, by simp⟩, hx.next ?_⟩⟩))
        simp [stepFrame, signStatement, hq]
  · exact .inr (.inr (.inr ⟨σ, hσ, hd.step h⟩))

/-! ### The invariant -/

theorem fragGen_new (clk : Clock) (s : GState) (f : Frame) (g : GossipObj) (new : List Frame)
    (h : (stepFrame cf clk s f).2 = some new) (hm : .fragGen g ∈ new) :
    f = .fragStore g ∧ ((readAndStore cf s g).2 : Int) = cf.crypto.threshold - 1 := by
  have aft : ∀ g' b, Frame.fragGen g ∉ afterStore g' b := by
    intro g' b hmem
    unfold afterStore at hmem
    split at hmem <;> (try split at hmem) <;> simp at hmem
  cases f with
  | recv n o =>
    simp only [stepFrame] at h
    split at h <;> simp at h
    subst h; simp at hm
  | blk o =>
    simp only [stepFrame, Option.some.injEq] at h; subst h
    split at hm
    · cases hm
    · split at hm <;> simp at hm
  | initFrag o =>
    simp only [stepFrame, Option.some.injEq] at h; subst h
    split at hm
    · cases hm
    · split at hm <;> simp at hm
  | store o =>
    simp only [stepFrame] at h
    split at h
    · cases h
    · simp at h; subst h; exact absurd hm (aft _ _)
    · split at h
      · simp at h; subst h; exact absurd hm (aft _ _)
      · simp at h; subst h; simp at hm
  | storeNote o => simp only [stepFrame, Option.some.injEq] at h; subst h; exact absurd hm (aft _ _)
  | sign o =>
    simp only [stepFrame] at h
    split at h
    · cases h
    · simp at h; subst h; simp at hm
  | fragGen o =>
    simp only [stepFrame] at h
    split at h
    · cases h
    · simp at h; subst h; simp at hm
  | fragStore o =>
    simp only [stepFrame, Option.some.injEq] at h; subst h
    rcases List.mem_append.1 hm with h1 | h1
    · split at h1
      · rename_i hc; simp at h1; subst h1; exact ⟨rfl, hc⟩
      · cases h1
    · split at h1 <;> simp at h1
  | _ => simp only [stepFrame, Option.some.injEq] at h; subst h; (try split at hm) <;> simp at hm

/-- A list of the round that has just grown: the fragment was stored, and what follows will be done. -/
theorem frag_grown (h : Step cf pub R c e c') {r : List GossipObj}
    (hr : c'.g.storage.fragList R.kind.frag R.key = c.g.storage.fragList R.kind.frag R.key ++ r) (hne : r ≠ []) :
    ∃ q, r = [q] ∧ q.type = R.kind.frag ∧ q.getID = R.key ∧
      ((c.g.storage.fragList R.kind.frag R.key).length : Int) < cf.crypto.threshold ∧
      (((c.g.storage.fragList R.kind.frag R.key).length : Int) = cf.crypto.threshold - 1 → Under cf R c' (.fragGen q)) ∧
      Under cf R c' (.sendPeers q) := by
  have hsame : c'.g.storage.fragList R.kind.frag R.key ≠ c.g.storage.fragList R.kind.frag R.key := by
    rw [hr]; intro h'; exact hne (by simpa using h')
  cases h.act.gact (R := R) with
  | same h1 _ _ => rw [h1] at hsame; exact absurd rfl hsame
  | exec f hf hx =>
    have hS := stepFrame_storage cf e.1 c.g f (h.s.wt f hf)
    rw [hx.1] at hsame hr
    generalize hst : (stepFrame cf e.1 c.g f).1.storage = st at hS hsame hr
    cases hS with
    | same => exact absurd rfl hsame
    | payload n g _ _ _ => exact absurd (by cases R.kind <;> rfl) hsame
    | put g _ _ _ => exact absurd (by simp) hsame
    | wipe => exact absurd hf h.inv.noWipe
    | frag g hfr hl =>
      by_cases e' : R.kind.frag = g.type ∧ R.key = g.getID
      · obtain ⟨e1, e2⟩ := e'
        rw [e1, e2, Storage.fragList_appendFrag_same _ _ _ _ hfr] at hr
        have hr' := List.append_cancel_left hr
        have hnew : (stepFrame cf e.1 c.g (.fragStore g)).2 = some
            ((if ((c.g.storage.fragList g.type g.getID).length : Int) = cf.crypto.threshold - 1 then [.fragGen g] else []) ++ [.sendPeers g]) := by
          simp only [stepFrame, readAndStore_frag cf hfr, if_pos hl]
        refine ⟨g, hr'.symm, e1.symm, e2.symm, by rw [e1, e2]; exact hl, ?_, ?_⟩
        · intro hc
          rw [e1, e2] at hc
          rw [if_pos hc] at hnew
          exact hx.2 _ hnew [] _ [.sendPeers g] rfl (by simp)
        · refine hx.2 _ hnew _ _ [] rfl ?_
          intro x hxm
          split at hxm
          · simp at hxm; subst hxm; exact ⟨e1.symm, e2.symm⟩
          · cases hxm
      · exfalso
        have e'' : R.kind.frag ≠ g.type ∨ R.key ≠ g.getID := by by_cases h1 : R.kind.frag = g.type <;> simp_all
        exact hsame (Storage.fragList_appendFrag_ne _ _ e'')

/-- The invariant is kept. -/
theorem CNode.step (h : Step cf pub R c e c') (hp : e.2 ≠ .periodic)
    (hm : ∀ n d, e.2 = .recv n d → MsgOK cf.crypto pub R d) : CNode cf pub R c' := by
  have hI := h.inv
  have hnw : ¬ HasFrame c' .wipe := by
    intro hw
    rcases h.act.frames hw with h1 | ⟨n, o, _, h1⟩ | ⟨n, x, h1⟩ | ⟨n, x, h1⟩ | ⟨h1, _⟩ | ⟨o, _, h1⟩ | ⟨a, new, _, hn, hm', _⟩
    · exact hI.noWipe h1
    · cases h1
    · cases h1
    · cases h1
    · exact hp h1
    · cases h1
    · exact wipe_new e.1 c.g a new hn hm'
  have hok : NodeOK cf pub R c'.g := by
    have htm : ∀ g ∈ c'.g.timers, g.type = R.kind.init → InitOK R g := by
      intro g hg
      rcases h.act.timers hg with h1 | h1
      · exact hI.ok.timers g h1
      · exact hI.frames _ h1
    cases h.act.gact (R := R) with
    | same h1 _ _ =>
      exact ⟨by rw [h1]; exact hI.ok.init, htm, by rw [h1]; exact hI.ok.frags, by rw [h1]; exact hI.ok.fulls, by rw [h1]; exact hI.ok.payload⟩
    | exec f hf hx =>
      have hS := stepFrame_storage cf e.1 c.g f (h.s.wt f hf)
      rw [← hx.1] at hS
      refine hI.ok.sstep (hI.frames f hf) (by rintro rfl; exact hI.noWipe hf) hS ?_
      intro g hg
      rw [hx.1] at hg
      rcases stepFrame_timers cf e.1 c.g f with h1 | ⟨o, rfl, h1⟩
      · rw [h1] at hg; exact .inl hg
      · rw [h1] at hg
        rcases List.mem_append.1 hg with hg | hg
        · exact .inl hg
        · simp at hg; subst hg; exact .inr rfl
  obtain ⟨r, hr⟩ := h.mono.frags R.kind.frag R.key
  refine ⟨hok, ?_, ?_, hnw, ?_, ?_, ?_⟩
  · intro f hf
    rcases h.act.frames hf with h1 | ⟨n, o, he, rfl⟩ | ⟨n, x, rfl⟩ | ⟨n, x, rfl⟩ | ⟨h1, _⟩ | ⟨o, ho, rfl⟩ | ⟨a, new, ha, hn, hm', _⟩
    · exact hI.frames f h1
    · exact hm n o he
    · trivial
    · trivial
    · exact absurd h1 hp
    · exact hI.ok.timers o ho
    · exact frame_new h.env hI.ok e.1 a (h.s.wt a ha) (hI.frames a ha) new hn f hm'
  · intro g hf ht hid
    rcases h.act.frames hf with h1 | ⟨n, o, he, h1⟩ | ⟨n, x, h1⟩ | ⟨n, x, h1⟩ | ⟨h1, _⟩ | ⟨o, ho, h1⟩ | ⟨a, new, ha, hn, hm', hg⟩
    · exact h.mono.length (hI.gen g h1 ht hid)
    · cases h1
    · cases h1
    · cases h1
    · exact absurd h1 hp
    · cases h1
    · obtain ⟨rfl, hb⟩ := fragGen_new e.1 c.g a g new hn hm'
      have hfr : g.type.isFrag = true := by rw [ht]; exact R.kind.frag_isFrag
      have hcase : ((readAndStore cf c.g g).2 : Int) = ((c.g.storage.fragList g.type g.getID).length : Int) := by
        rw [readAndStore_frag cf hfr]; split <;> rfl
      have hl : ((c.g.storage.fragList g.type g.getID).length : Int) < cf.crypto.threshold := by omega
      rw [hg]
      simp only [stepFrame, readAndStore_frag cf hfr, if_pos hl, ← ht, ← hid, Storage.fragList_appendFrag_same _ _ _ _ hfr]
      simp; omega
  · intro hl
    by_cases h0 : cf.crypto.threshold ≤ ((c.g.storage.fragList R.kind.frag R.key).length : Int)
    · exact (hI.full h0).step h h0
    · have hne : r ≠ [] := by rintro rfl; rw [hr] at hl; simp at hl; omega
      obtain ⟨q, hq, ht, hid, hlt, hgen, _⟩ := frag_grown h hr hne
      refine .inr (.inr ⟨.fragGen q, .inl ⟨q, ht, hid, rfl⟩, hgen ?_⟩)
      rw [hr, hq] at hl
      simp at hl; omega
  · intro hh
    by_cases h0 : (c.g.storage.objs R.kind.init).has R.key0 = true
    · exact (hI.own h0).step h
    · cases h.act.gact (R := R) with
      | same h1 _ _ => rw [h1] at hh; exact absurd hh h0
      | exec f hf hx =>
        have hS := stepFrame_storage cf e.1 c.g f (h.s.wt f hf)
        rw [hx.1] at hh
        obtain ⟨g, rfl, hid, hv, hd⟩ := newly_held (k := R.key0) hS h0 hh
        have hobj : g.type.isObj = true := h.s.wt _ hf
        have htype : g.type = R.kind.init := congrArg GossipID.type hid
        refine .inr (.inr (.inl ⟨.storeBl g, ⟨g, hid, by simp⟩, hx.next ?_⟩))
        rcases hlk : storeLocked { c.g with timerlist := c.g.timerlist ++ [e.1.second] } g with ⟨s1, b⟩
        rcases storage_storeLocked hobj hlk with ⟨rfl, _, hd'⟩ | ⟨rfl, _, _⟩
        · have : dupCheck c.g g = true := (dupCheck_congr rfl g).trans hd'
          rw [hd (by rw [htype]; cases R.kind <;> rfl)] at this
          cases this
        · simp only [stepFrame, hv, hlk]
  · intro k o ho hpo
    have hold : (c.g.storage.objs R.kind.full).get k = some o → SentDue cf R c' o := by
      intro h1
      exact (hI.sent k o h1 hpo).step h (h.s.storage.objs _ _ _ h1).2.1 hpo
    cases h.act.gact (R := R) with
    | same h1 _ _ => rw [h1] at ho; exact hold ho
    | exec f hf hx =>
      have hS := stepFrame_storage cf e.1 c.g f (h.s.wt f hf)
      rw [hx.1] at ho
      generalize hst : (stepFrame cf e.1 c.g f).1.storage = st at hS ho
      cases hS with
      | same => exact hold ho
      | payload n g _ _ _ => refine hold ?_; revert ho; cases R.kind <;> exact id
      | frag g _ _ => simp at ho; exact hold ho
      | wipe => exact absurd hf hI.noWipe
      | put g hv hobj hd =>
        by_cases e1 : R.kind.full = g.type
        · rw [e1, Storage.objs_putObj_same _ _ _ _ hobj, GoMap.get_set] at ho
          split at ho
          · cases ho
            left
            refine hx.next ?_
            rcases hlk : storeLocked { c.g with timerlist := c.g.timerlist ++ [e.1.second] } o with ⟨s1, b⟩
            cases b with
            | true => simp only [stepFrame, hv, hlk]
            | false =>
              exfalso
              unfold storeLocked at hlk
              rw [← e1] at hlk
              revert hlk
              cases R.kind <;> simp [Kind.full]
          · rw [← e1] at ho; exact hold ho
        · rw [Storage.objs_putObj_ne _ _ _ e1] at ho; exact hold ho

end CTng
