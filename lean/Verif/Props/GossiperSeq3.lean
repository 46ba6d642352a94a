import Verif.Props.GossiperSeq2
/- C20: redelivery. -/
set_option autoImplicit false

namespace CTng
variable {L : Lib}

/-- Same storage, blacklist and armed timers. -/
def SameCore (s s' : GState) : Prop := s'.storage = s.storage ∧ s'.blacklist = s.blacklist ∧ s'.timers = s.timers

theorem SameCore.refl (s : GState) : SameCore s s := ⟨rfl, rfl, rfl⟩
theorem SameCore.symm {s s' : GState} (h : SameCore s s') : SameCore s' s := ⟨h.1.symm, h.2.1.symm, h.2.2.symm⟩

theorem dup_again (cf : GConf L) (clk : Clock) (s : GState) (g : GossipObj) (h : dupCheck s g = true) :
    handle cf clk s g = (s, false) := by
  rw [handle_apply, dispatch, if_pos h]

theorem itemCount_congr {s s' : GState} (h : s'.storage = s.storage) (k : GossipID) (t : GType) :
    itemCount s' k t = itemCount s k t := by unfold itemCount; rw [h]

theorem isMalicious_congr {s s' : GState} (h : s'.storage = s.storage) (g : GossipObj) :
    isMalicious s' g = isMalicious s g := by unfold isMalicious getObject; rw [h]

/-- Handlers other than INIT keep a held INIT object. -/
theorem handle_keeps_acc (cf : GConf L) (clk : Clock) (s : GState) (g : GossipObj) (ht : g.type.isFrag = true) :
    (handle cf clk s g).1.storage.objs .ACC_INIT = s.storage.objs .ACC_INIT := by
  have full : ∀ (s : GState) (g : GossipObj), g.type.isFull = true →
      (handle cf clk s g).1.storage.objs .ACC_INIT = s.storage.objs .ACC_INIT := by
    intro s g ht
    rcases handle_full_cases cf clk s g ht with h | h | ⟨_, h⟩ | ⟨_, _, _, h⟩
    · rw [h]
    · rw [h]; simp
    · rw [h]; simp
    · rw [h]
      simp only [storage_noteConverge, storage_sendToMonitor, storage_storedState]
      exact Storage.objs_putObj_ne _ _ _ (by intro e; rw [← e] at ht; simp [GType.isFull] at ht)
  rw [handle_frag cf clk ht]
  split
  · rfl
  split
  · rfl
  unfold handleFrag
  split
  · rfl
  rw [readAndStore_frag cf ht]
  by_cases hlt : ((s.storage.fragList g.type g.getID).length : Int) < cf.crypto.threshold
  · rw [if_pos hlt]
    simp only
    split
    · rename_i h; split at h
      · split at h
        · cases h; simp
        · rename_i o hg
          have := full ({ s with storage := s.storage.appendFrag g.type g.getID g }.emit [.generatedFull g.getID o]) o
            (by rw [generateFULL_type hg]; exact getTargetType_isFull ht)
          rw [h] at this; simpa using this
      · cases h
    · rename_i s' h
      have : s'.storage.objs .ACC_INIT = s.storage.objs .ACC_INIT := by
        split at h
        · split at h
          · cases h
          · rename_i o hg
            have := full ({ s with storage := s.storage.appendFrag g.type g.getID g }.emit [.generatedFull g.getID o]) o
              (by rw [generateFULL_type hg]; exact getTargetType_isFull ht)
            rw [h] at this; simpa using this
        · cases h; simp
      split <;> simpa using this
  · rw [if_neg hlt]
    simp only
    rw [if_neg (by omega)]
    simp only
    rw [if_neg hlt]

/-- A fragment that is new, about an entity that is not blacklisted, with room left, is kept. -/
theorem handle_frag_kept (cf : GConf L) (clk : Clock) (s : GState) (g : GossipObj) (ht : g.type.isFrag = true)
    (hd : ¬ dupCheck s g = true) (hb : ¬ s.blacklist.has g.payload.p0 = true)
    (hf : ¬ itemCount s g.getID (fullTypeOf g.type) > 0)
    (hl : ((s.storage.fragList g.type g.getID).length : Int) < cf.crypto.threshold) :
    g ∈ (handle cf clk s g).1.storage.fragList g.type g.getID := by
  have full : ∀ (s : GState) (o : GossipObj), o.type.isFull = true →
      (handle cf clk s o).1.storage.fragList g.type g.getID = s.storage.fragList g.type g.getID := by
    intro s o ht
    rcases handle_full_cases cf clk s o ht with h | h | ⟨_, h⟩ | ⟨_, _, _, h⟩ <;> rw [h] <;> simp
  have hmem : g ∈ (s.storage.appendFrag g.type g.getID g).fragList g.type g.getID := by
    rw [Storage.fragList_appendFrag_same _ _ _ _ ht]; simp
  rw [handle_frag cf clk ht, if_neg hd, if_neg (by exact hb), handleFrag, if_neg hf, readAndStore_frag cf ht, if_pos hl]
  simp only
  split
  · rename_i h; split at h
    · split at h
      · cases h; exact hmem
      · rename_i o hg
        have := full ({ s with storage := s.storage.appendFrag g.type g.getID g }.emit [.generatedFull g.getID o]) o
          (by rw [generateFULL_type hg]; exact getTargetType_isFull ht)
        rw [h] at this; dsimp only at this ⊢; rw [this]; exact hmem
    · cases h
  · rename_i s' h
    have : g ∈ s'.storage.fragList g.type g.getID := by
      split at h
      · split at h
        · cases h
        · rename_i o hg
          have := full ({ s with storage := s.storage.appendFrag g.type g.getID g }.emit [.generatedFull g.getID o]) o
            (by rw [generateFULL_type hg]; exact getTargetType_isFull ht)
          rw [h] at this; dsimp only at this ⊢; rw [this]; exact hmem
      · cases h; exact hmem
    split <;> simpa using this

/-- A fragment is either ignored or among the kept fragments afterwards. -/
theorem handle_frag_or_kept (cf : GConf L) (clk : Clock) (s : GState) (g : GossipObj) (ht : g.type.isFrag = true) :
    (∀ s2 clk', s2.storage = s.storage → s2.blacklist = s.blacklist → handle cf clk' s2 g = (s2, false)) ∨
    dupCheck (handle cf clk s g).1 g = true := by
  by_cases hd : dupCheck s g = true
  · left; intro s2 clk' h1 h2; exact dup_again cf clk' s2 g (by rw [dupCheck_congr h1]; exact hd)
  by_cases hb : s.blacklist.has g.payload.p0 = true
  · left; intro s2 clk' h1 h2; exact handle_blacklisted cf clk' s2 g (by rw [h2]; exact hb)
  by_cases hf : itemCount s g.getID (fullTypeOf g.type) > 0
  · left; intro s2 clk' h1 h2
    rw [handle_frag cf clk' ht, handleFrag, itemCount_congr h1, if_pos hf]
    simp
  by_cases hl : ((s.storage.fragList g.type g.getID).length : Int) < cf.crypto.threshold
  · right
    rw [dupCheck_frag ht]
    exact ⟨g, handle_frag_kept cf clk s g ht hd hb hf hl, rfl⟩
  · left; intro s2 clk' h1 h2
    rw [handle_frag cf clk' ht, if_neg (by rw [dupCheck_congr h1]; exact hd), if_neg (by rw [inBlacklist, h2]; exact hb),
      handleFrag, itemCount_congr h1, if_neg hf, readAndStore_frag cf ht, h1, if_neg hl]
    simp only
    rw [if_neg (by omega)]
    simp only
    rw [if_neg hl]

/-- Ignored by every state with this storage and blacklist. -/
def Inert (cf : GConf L) (s : GState) (g : GossipObj) : Prop :=
  ∀ s2 clk', s2.storage = s.storage → s2.blacklist = s.blacklist → SameCore s2 (handle cf clk' s2 g).1

theorem Inert.of_dup {cf : GConf L} {s : GState} {g : GossipObj} (h : dupCheck s g = true) : Inert cf s g := by
  intro s2 clk' h1 h2
  rw [dup_again cf clk' s2 g (by rw [dupCheck_congr h1]; exact h)]
  exact .refl _

theorem Inert.of_blacklist {cf : GConf L} {s : GState} {g : GossipObj} (h : s.blacklist.has g.payload.p0 = true) :
    Inert cf s g := by
  intro s2 clk' h1 h2
  rw [handle_blacklisted cf clk' s2 g (by rw [h2]; exact h)]
  exact .refl _

theorem store_failed (cf : GConf L) (clk : Clock) (s : GState) (g : GossipObj) (hv : g.verify cf.crypto ≠ .ok) :
    (storeGossipObject cf clk s g).1 = s ∧ (storeGossipObject cf clk s g).2 ≠ .stored := by
  unfold storeGossipObject
  cases h : g.verify cf.crypto with
  | ok => exact absurd h hv
  | err e => simp
  | panic => simp

/-- Handling something is final: either it is ignored from now on, or it was ignored from the start. -/
theorem handle_final (cf : GConf L) (clk : Clock) (s : GState) (g : GossipObj)
    (hcon : ∀ k o, s.storage.conInit.get k = some o → s.blacklist.has o.payload.p0 = true)
    (hkeys : ∀ k o, s.storage.conInit.get k = some o → o.getID = k) :
    Inert cf (handle cf clk s g).1 g := by
  -- conflict proofs
  have conUnv : ∀ (s : GState) (c : GossipObj), c.type = .CON_INIT → c.verify cf.crypto ≠ .ok → Inert cf s c := by
    intro s c hc hv s2 clk' h1 h2
    rcases handle_con_cases cf clk' s2 c hc with h | ⟨h, _⟩
    · rw [h]; exact .refl _
    · exact absurd h hv
  have conCase : ∀ c, c.type = .CON_INIT →
      ((handle cf clk s c).1 = s ∧ (s.blacklist.has c.payload.p0 = true ∨ c.verify cf.crypto ≠ .ok)) ∨
      (handle cf clk s c).1.blacklist.has c.payload.p0 = true := by
    intro c hc
    have hobj : c.type.isObj = true := by simp [hc, GType.isObj]
    rcases handle_con_cases cf clk s c hc with h | ⟨hv, hb, hd, h⟩
    · left
      refine ⟨h, ?_⟩
      by_cases hv : c.verify cf.crypto = .ok
      · left
        cases hb : s.blacklist.has c.payload.p0 with
        | true => rfl
        | false =>
          exfalso
          have hnone : (s.storage.objs .CON_INIT).get c.getID = none := by
            cases hg : (s.storage.objs .CON_INIT).get c.getID with
            | none => rfl
            | some o =>
              have h1 := hcon _ _ hg
              have h2 : o.payload.p0 = c.payload.p0 := congrArg GossipID.entity (hkeys _ _ hg)
              rw [h2, hb] at h1; cases h1
          have h1 := handle_con_new cf clk s c hc hv hnone hb
          rw [h1] at h
          have := congrArg (fun x => x.storage.conInit.get c.getID) h
          simp only [storage_sendToMonitor, storage_sendToGossipers, storage_storedState] at this
          have e := Storage.objs_putObj_same s.storage c.type c.getID c hobj
          rw [hc] at e
          change (s.storage.putObj .CON_INIT c.getID c).conInit = s.storage.conInit.set c.getID c at e
          rw [hc, e, GoMap.get_set_self] at this
          change s.storage.conInit.get c.getID = none at hnone
          rw [hnone] at this; cases this
      · exact .inr hv
    · right
      rw [h]
      simp [blacklist_storedState, hc]
  by_cases hd : dupCheck s g = true
  · rw [dup_again cf clk s g hd]; exact .of_dup hd
  by_cases hb : s.blacklist.has g.payload.p0 = true
  · rw [handle_blacklisted cf clk s g hb]; exact .of_blacklist hb
  by_cases hc : g.type = .CON_INIT
  · rcases conCase g hc with ⟨h, h' | h'⟩ | h
    · rw [h]; exact .of_blacklist h'
    · exact conUnv _ g hc h'
    · exact .of_blacklist h
  by_cases hf : g.type.isFrag = true
  · rcases handle_frag_or_kept cf clk s g hf with h | h
    · rw [h s clk rfl rfl]
      intro s2 clk' h1 h2
      rw [h s2 clk' h1 h2]; exact .refl _
    · exact .of_dup h
  by_cases hF : g.type.isFull = true
  · have hobj : g.type.isObj = true := by cases h : g.type <;> simp_all [GType.isFull, GType.isObj]
    by_cases hcnt : itemCount s g.getID g.type = 0
    · by_cases hv : g.verify cf.crypto = .ok
      · refine .of_dup ((dupCheck_obj hobj).2 ⟨g, ?_, rfl⟩)
        rw [handle_full cf clk hF, if_neg hd, if_neg (by exact hb), handleFull, if_neg (by exact hb), if_pos hcnt]
        rcases storeGossipObject_cases cf clk s g hobj (by simpa using hd) with ⟨h, _⟩ | ⟨⟨e, h⟩, _⟩ | ⟨_, h⟩
        · rw [hv] at h; cases h
        · rw [hv] at h; cases h
        · simp only [h]
          simp [Storage.objs_putObj_same _ _ _ _ hobj]
      · intro s2 clk' h1 h2
        rcases handle_full_cases cf clk' s2 g hF with h | h | ⟨_, h⟩ | ⟨h, _⟩
        · rw [h]; exact .refl _
        · rw [h]; exact ⟨by simp, by simp, by simp⟩
        · rw [h]; exact ⟨by simp, by simp, by simp⟩
        · exact absurd h hv
    · have key : ∀ (s2 : GState) clk', s2.storage = s.storage → (handle cf clk' s2 g).1 = s2 ∨
          (handle cf clk' s2 g).1 = noteConverge cf clk' s2 := by
        intro s2 clk' h1
        rw [handle_full cf clk' hF]
        split
        · exact .inl rfl
        · split
          · exact .inl rfl
          · rename_i hb'
            rw [handleFull, if_neg hb', itemCount_congr h1, if_neg hcnt]; exact .inr rfl
      intro s2 clk' h1 h2
      have h1' : s2.storage = s.storage := by
        rw [h1]; rcases key s clk rfl with h | h <;> rw [h]; simp
      rcases key s2 clk' h1' with h | h
      · rw [h]; exact .refl _
      · rw [h]; exact ⟨by simp, by simp, by simp⟩
  by_cases ha : g.type = .ACC_INIT
  · have hobj : g.type.isObj = true := by simp [ha, GType.isObj]
    by_cases hv : g.verify cf.crypto = .ok
    · by_cases hc1 : itemCount s g.getID .ACC_FULL > 0
      · have key : ∀ (s2 : GState) clk', s2.storage = s.storage → (handle cf clk' s2 g).1 = s2 := by
          intro s2 clk' h1
          rw [handle_acc cf clk' ha, handleAcc, itemCount_congr h1, if_pos hc1]; simp
        intro s2 clk' h1 h2
        rw [key s clk rfl] at h1
        rw [key s2 clk' h1]; exact .refl _
      by_cases hc2 : (itemCount s g.getID .ACC_FRAG : Int) ≥ cf.crypto.threshold
      · have key : ∀ (s2 : GState) clk', s2.storage = s.storage → (handle cf clk' s2 g).1 = s2 := by
          intro s2 clk' h1
          rw [handle_acc cf clk' ha, handleAcc, itemCount_congr h1, itemCount_congr h1, if_pos hc2]; simp
        intro s2 clk' h1 h2
        rw [key s clk rfl] at h1
        rw [key s2 clk' h1]; exact .refl _
      refine .of_dup ((dupCheck_obj hobj).2 ⟨g, ?_, rfl⟩)
      rw [handle_acc cf clk ha, if_neg hd, if_neg (by exact hb), handleAcc, if_neg hc1, if_neg hc2]
      have base : ((storedState cf clk s g).storage.objs .ACC_INIT).get g.getID = some g := by
        rw [storage_storedState, ← ha, Storage.objs_putObj_same _ _ _ _ hobj]; simp
      rcases storeGossipObject_cases cf clk s g hobj (by simpa using hd) with ⟨h, _⟩ | ⟨⟨e, h⟩, _⟩ | ⟨_, h⟩
      · rw [hv] at h; cases h
      · rw [hv] at h; cases h
      · simp only [h]
        split
        · rw [ha]; exact base
        · unfold signStatement
          cases hg : generateFRAG cf g with
          | none => rw [ha]; exact base
          | some f =>
            simp only [Option.map_some]
            rw [ha, handle_keeps_acc cf clk _ f (by rw [generateFRAG_type hg, ha]; rfl)]
            exact base
    · have key : ∀ (s2 : GState) clk', (handle cf clk' s2 g).1 = s2 := by
        intro s2 clk'
        rw [handle_acc cf clk' ha]
        split
        · rfl
        split
        · rfl
        unfold handleAcc
        split
        · rfl
        split
        · rfl
        obtain ⟨h1, h2⟩ := store_failed cf clk' s2 g hv
        rcases hr : storeGossipObject cf clk' s2 g with ⟨s3, r⟩
        rw [hr] at h1 h2
        cases r with
        | stored => exact absurd rfl h2
        | refused => exact h1
        | panic => exact h1
      intro s2 clk' _ _
      rw [key]; exact .refl _
  by_cases hi : g.type = .STH_INIT ∨ g.type = .REV_INIT
  · have hobj : g.type.isObj = true := by rcases hi with h | h <;> simp [h, GType.isObj]
    by_cases hc1 : itemCount s g.getID (fullOfInit g.type) > 0
    · have key : ∀ (s2 : GState) clk', s2.storage = s.storage → (handle cf clk' s2 g).1 = s2 := by
        intro s2 clk' h1
        rw [handle_sthrev cf clk' hi, handleInit, itemCount_congr h1, if_pos hc1]; simp
      intro s2 clk' h1 h2
      rw [key s clk rfl] at h1
      rw [key s2 clk' h1]; exact .refl _
    by_cases hc2 : (itemCount s g.getID (fragOfInit g.type) : Int) ≥ cf.crypto.threshold
    · have key : ∀ (s2 : GState) clk', s2.storage = s.storage → (handle cf clk' s2 g).1 = s2 := by
        intro s2 clk' h1
        rw [handle_sthrev cf clk' hi, handleInit, itemCount_congr h1, itemCount_congr h1, if_pos hc2]; simp
      intro s2 clk' h1 h2
      rw [key s clk rfl] at h1
      rw [key s2 clk' h1]; exact .refl _
    by_cases hm : isMalicious s g = true
    · have hh : handle cf clk s g = handle cf clk s (generateCON clk (getObject s g.getID g.type) g) := by
        rw [handle_sthrev cf clk hi, if_neg hd, if_neg (by exact hb), handleInit, if_neg hc1, if_neg hc2, if_pos hm]
      have hsto : ∀ t, t ≠ .CON_INIT → (handle cf clk s g).1.storage.objs t = s.storage.objs t := by
        intro t ht; rw [hh]; exact objs_handle_con cf clk s _ rfl t ht
      have hobjeq : ∀ s2 : GState, s2.storage = (handle cf clk s g).1.storage →
          getObject s2 g.getID g.type = getObject s g.getID g.type ∧ isMalicious s2 g = true := by
        intro s2 h1
        refine ⟨?_, ?_⟩
        · unfold getObject; rw [h1, hsto _ hc]
        · rw [← hm]
          unfold isMalicious getObject
          rw [h1, hsto _ (by simp), hsto _ (by simp)]
      intro s2 clk' h1 h2
      obtain ⟨e1, e2⟩ := hobjeq s2 h1
      rcases handle_sthrev_cases cf clk' s2 g hi with h | ⟨_, h⟩ | ⟨_, _, _, h, _⟩
      · rw [h]; exact .refl _
      · rw [h, e1]
        rcases conCase _ (show (generateCON clk (getObject s g.getID g.type) g).type = .CON_INIT from rfl) with
          ⟨h3, h4 | h4⟩ | h3
        · rw [hh, h3] at h2
          exact Inert.of_blacklist (cf := cf) (s := s2) (by rw [h2]; exact h4) s2 clk' rfl rfl
        · exact conUnv s2 (generateCON clk' (getObject s g.getID g.type) g) rfl h4 s2 clk' rfl rfl
        · rw [← hh] at h3
          exact Inert.of_blacklist (cf := cf) (s := s2) (by rw [h2]; exact h3) s2 clk' rfl rfl
      · rw [e2] at h; cases h
    · by_cases hv : g.verify cf.crypto = .ok
      · refine .of_dup ((dupCheck_obj hobj).2 ⟨g, ?_, rfl⟩)
        rw [handle_sthrev cf clk hi, if_neg hd, if_neg (by exact hb), handleInit, if_neg hc1, if_neg hc2, if_neg hm]
        rcases storeGossipObject_cases cf clk s g hobj (by simpa using hd) with ⟨h, _⟩ | ⟨⟨e, h⟩, _⟩ | ⟨_, h⟩
        · rw [hv] at h; cases h
        · rw [hv] at h; cases h
        · simp only [h]
          simp [Storage.objs_putObj_same _ _ _ _ hobj]
      · have key : ∀ (s2 : GState) clk', isMalicious s2 g = false → (handle cf clk' s2 g).1 = s2 := by
          intro s2 clk' hm'
          rcases handle_sthrev_cases cf clk' s2 g hi with h | ⟨h, _⟩ | ⟨h, _⟩
          · exact h
          · rw [hm'] at h; cases h
          · exact absurd h hv
        intro s2 clk' h1 h2
        rw [key s clk (by simpa using hm)] at h1
        rw [key s2 clk' (by rw [isMalicious_congr h1]; simpa using hm)]; exact .refl _
  · intro s2 clk' _ _
    rw [handle_other cf clk' (by cases h : g.type <;> simp_all [GType.isFrag, GType.isFull, GType.isOther])]
    exact .refl _

/-- `Handle_Gossip_object` does not touch the payload store. -/
theorem handle_revPayload (cf : GConf L) (clk : Clock) (s : GState) (g : GossipObj) :
    (handle cf clk s g).1.storage.revPayload = s.storage.revPayload := by
  refine Closed.handle cf (P := fun s' => s'.storage.revPayload = s.storage.revPayload) (FineClosed.closed cf ?_) clk g rfl
  exact {
    store := by intro clk s g h _ _ _ _ _; simpa using h
    frag := by intro s g h _ _ _ _; simpa using h
    peers := by intro s g h; simpa using h
    owner := by intro s g h; simpa using h
    signed := by intro s g h; simpa using h
    gen := by intro s k g h; simpa using h
    arm := by intro s g h; exact h
    note := by intro clk s h; simpa using h }

/-- The state handed to `Handle_Gossip_object`. -/
def prep (cf : GConf L) (n : Int) (s : GState) (g : GossipObj) : GState :=
  if n > cf.optThreshold ∧ g.type = .REV_INIT ∧ g.verify cf.crypto = .ok then
    { s with trafficReceived := s.trafficReceived + n,
             storage := { s.storage with revPayload := s.storage.revPayload.set g.getID g } }
  else { s with trafficReceived := s.trafficReceived + n }

theorem recv_prep (cf : GConf L) (clk : Clock) (n : Int) (s : GState) (g : GossipObj) :
    gossipObjectHandler cf clk n s g =
      if n > cf.optThreshold ∧ g.type = .REV_INIT ∧ g.verify cf.crypto = .panic then (prep cf n s g, true)
      else handle cf clk (prep cf n s g)
        (if cf.optMode = true ∧ g.type = .REV_FRAG then reconstructPayload s g else g) := by
  by_cases ho : cf.optMode = true ∧ g.type = .REV_FRAG
  · rw [if_neg (by simp [ho.2]), if_pos ho, prep, if_neg (by simp [ho.2])]
    unfold gossipObjectHandler
    simp only [ho, reduceCtorEq, and_false, if_false, and_self, if_true]
    rfl
  · rw [recv_eq cf clk n s g ho, if_neg ho, prep]
    by_cases hc : n > cf.optThreshold ∧ g.type = .REV_INIT
    · rw [if_pos hc]
      cases hv : g.verify cf.crypto <;> simp [hc]
    · rw [if_neg hc, if_neg (fun h => hc ⟨h.1, h.2.1⟩), if_neg (fun h => hc ⟨h.1, h.2.1⟩)]

/-- C20. Handling the same object a second time, at whatever time, changes neither storage nor blacklist nor the armed
timers. -/
theorem C20_redelivery_idempotent (cf : GConf L) (s : GState) (hs : GReach cf s) (g : GossipObj) (clk clk' : Clock)
    (n : Int) :
    let s1 := (gossipObjectHandler cf clk n s g).1
    let s2 := (gossipObjectHandler cf clk' n s1 g).1
    s2.storage = s1.storage ∧ s2.blacklist = s1.blacklist ∧ s2.timers = s1.timers := by
  have H := hs.storageInv cf
  have hcon := hs.conBlacklisted cf
  have hkeys : ∀ k o, s.storage.conInit.get k = some o → o.getID = k := fun k o h => (H.objs .CON_INIT k o h).1
  intro s1 s2
  have pb : ∀ s : GState, (prep cf n s g).blacklist = s.blacklist ∧ (prep cf n s g).timers = s.timers ∧
      (prep cf n s g).storage.conInit = s.storage.conInit := by
    intro s; unfold prep; split <;> exact ⟨rfl, rfl, rfl⟩
  by_cases hp : n > cf.optThreshold ∧ g.type = .REV_INIT ∧ g.verify cf.crypto = .panic
  · have e : s2 = prep cf n s1 g := by simp only [s2]; rw [recv_prep, if_pos hp]
    rw [e]
    refine ⟨?_, (pb s1).1, (pb s1).2.1⟩
    unfold prep
    rw [if_neg (by simp [hp.2.2])]
  · have e1 : s1 = (handle cf clk (prep cf n s g)
        (if cf.optMode = true ∧ g.type = .REV_FRAG then reconstructPayload s g else g)).1 := by
      simp only [s1]; rw [recv_prep, if_neg hp]
    have e2 : s2 = (handle cf clk' (prep cf n s1 g)
        (if cf.optMode = true ∧ g.type = .REV_FRAG then reconstructPayload s1 g else g)).1 := by
      simp only [s2]; rw [recv_prep, if_neg hp]
    have pay : s1.storage.revPayload = (prep cf n s g).storage.revPayload := by rw [e1, handle_revPayload]
    have hsto : (prep cf n s1 g).storage = s1.storage := by
      by_cases hc : n > cf.optThreshold ∧ g.type = .REV_INIT ∧ g.verify cf.crypto = .ok
      · have : s1.storage.revPayload.set g.getID g = s1.storage.revPayload := by
          rw [pay, prep, if_pos hc]; exact GoMap.set_set_same _ _ _
        unfold prep
        rw [if_pos hc]
        simp only [this]
      · unfold prep; rw [if_neg hc]
    have hg : (if cf.optMode = true ∧ g.type = .REV_FRAG then reconstructPayload s1 g else g) =
        (if cf.optMode = true ∧ g.type = .REV_FRAG then reconstructPayload s g else g) := by
      by_cases ho : cf.optMode = true ∧ g.type = .REV_FRAG
      · rw [if_pos ho, if_pos ho]
        unfold reconstructPayload
        rw [pay, prep, if_neg (by simp [ho.2])]
      · rw [if_neg ho, if_neg ho]
    rw [hg] at e2
    have fin := handle_final cf clk (prep cf n s g)
      (if cf.optMode = true ∧ g.type = .REV_FRAG then reconstructPayload s g else g)
      (by rw [(pb s).2.2, (pb s).1]; exact hcon) (by rw [(pb s).2.2]; exact hkeys)
    rw [← e1] at fin
    have := fin (prep cf n s1 g) clk' hsto (pb s1).1
    rw [← e2] at this
    rw [this.1, this.2.1, this.2.2, hsto, (pb s1).1, (pb s1).2.1]
    exact ⟨rfl, rfl, rfl⟩

example : ∃ s, GReach Ref.gconf s ∧ s.storage.sthInit.len = 1 ∧
    (gossipObjectHandler Ref.gconf Ref.clk 10 s Ref.sth').1.storage ≠ s.storage :=
  ⟨grun Ref.gconf GState.init [(Ref.clk, .recv 10 Ref.sth)], ⟨_, rfl⟩, by decide +kernel, by decide +kernel⟩

end CTng
