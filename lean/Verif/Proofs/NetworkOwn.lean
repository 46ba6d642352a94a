import Verif.Proofs.NetworkFrag
/- A gossiper that holds the statement of a round has a timer for it or has signed it. -/
set_option autoImplicit false

namespace CTng
variable {L : Lib}

/-- Armed timers stay armed while objects are handled. -/
theorem timers_fine (cf : GConf L) (g : GossipObj) : FineClosed cf (fun s => g ∈ s.timers) where
  store := by intro clk s o h _ _ _ _ _; simpa using h
  frag := by intro s o h _ _ _ _; exact h
  peers := by intro s o h; simpa using h
  owner := by intro s o h; exact h
  signed := by intro s o h; exact h
  gen := by intro s k o h; exact h
  arm := by intro s o h; exact List.mem_append_left _ h
  note := by intro clk s h; simpa using h

theorem objs_handle_full (cf : GConf L) (clk : Clock) (s : GState) (g : GossipObj) (hg : g.type.isFull = true) (t : GType)
    (ht : t.isInit = true) : (handle cf clk s g).1.storage.objs t = s.storage.objs t := by
  rcases handle_full_cases cf clk s g hg with e | e | ⟨_, e⟩ | ⟨_, _, _, e⟩
  · rw [e]
  · rw [e]; simp
  · rw [e]; simp
  · rw [e]
    simp only [storage_noteConverge, storage_sendToMonitor, storage_storedState]
    exact Storage.objs_putObj_ne _ _ _ (by rintro rfl; exact absurd ht (by simp [(isFull_leaf hg).1]))

theorem objs_handle_frag (cf : GConf L) (clk : Clock) (s : GState) (g : GossipObj) (hg : g.type.isFrag = true) (t : GType)
    (ht : t.isInit = true) : (handle cf clk s g).1.storage.objs t = s.storage.objs t := by
  have h := handle_frag_res cf clk s g hg
  generalize (handle cf clk s g).1 = s' at h
  cases h with
  | skip => rfl
  | low => simp
  | panic => simp
  | gen o s2 b _ _ _ hgen hh =>
    have hof : o.type.isFull = true := by
      rw [generateFULL_type hgen]; exact getTargetType_isFull hg
    have e := objs_handle_full cf clk (({ s with storage := s.storage.appendFrag g.type g.getID g } : GState).emit [.generatedFull g.getID o]) o hof t ht
    rw [hh] at e
    have e' : s2.storage.objs t = s.storage.objs t := by simpa using e
    cases b
    · simpa using e'
    · simpa using e'

/-- The gossiper's own fragment on the statement. -/
def OwnSig (c : CryptoConfig L) (R : Round) (σ : Sig2) : Prop := (c.thresholdSign R.pay.cat).1.toStr = some σ.s0

def Own (cf : GConf L) (R : Round) (s : GState) : Prop :=
  (s.storage.objs R.kind.init).has R.key0 = true →
    (∃ g ∈ s.timers, g.getID = R.key0) ∨ ∃ σ, OwnSig cf.crypto R σ ∧ Arrived cf R.pay.p0 R.kind.frag R.key σ s ∧
      (R.kind = .acc → Kept cf R.kind.frag R.key σ s)

section
variable {cf : GConf L} {pub : L.BlsSec → L.BlsPub} {R : Round}

/-- Things that only grow. -/
structure Grow (cf : GConf L) (R : Round) (s s' : GState) : Prop where
  black : s.blacklist.has R.pay.p0 = true → s'.blacklist.has R.pay.p0 = true
  frags : ∃ r, s'.storage.fragList R.kind.frag R.key = s.storage.fragList R.kind.frag R.key ++ r
  timers : ∀ g ∈ s.timers, g ∈ s'.timers

theorem Grow.arrived {s s' : GState} (h : Grow cf R s s') {σ : Sig2} (ha : Arrived cf R.pay.p0 R.kind.frag R.key σ s) :
    Arrived cf R.pay.p0 R.kind.frag R.key σ s' := by
  obtain ⟨r, hr⟩ := h.frags
  rcases ha with h1 | h1 | ⟨f, hf, e⟩
  · exact .inl (h.black h1)
  · right; left; rw [hr, List.length_append]; push_cast; omega
  · exact .inr (.inr ⟨f, by rw [hr]; simp [hf], e⟩)

theorem Grow.kept {s s' : GState} (h : Grow cf R s s') {σ : Sig2} (ha : Kept cf R.kind.frag R.key σ s) :
    Kept cf R.kind.frag R.key σ s' := by
  obtain ⟨r, hr⟩ := h.frags
  rcases ha with h1 | ⟨f, hf, e⟩
  · left; rw [hr, List.length_append]; push_cast; omega
  · exact .inr ⟨f, by rw [hr]; simp [hf], e⟩

theorem Grow.own {s s' : GState} (h : Grow cf R s s') (ho : Own cf R s)
    (hi : (s'.storage.objs R.kind.init).has R.key0 = true → (s.storage.objs R.kind.init).has R.key0 = true) : Own cf R s' := by
  intro hh
  rcases ho (hi hh) with ⟨g, hg, e⟩ | ⟨σ, h1, h2, h3⟩
  · exact .inl ⟨g, h.timers g hg, e⟩
  · exact .inr ⟨σ, h1, h.arrived h2, fun e => h.kept (h3 e)⟩

theorem Grow.handle (clk : Clock) (s : GState) (g : GossipObj) : Grow cf R s (CTng.handle cf clk s g).1 where
  black := fun h => (blacklist_closed cf R.pay.p0).toHClosed.handle clk g h
  frags := (fragList_closed cf R.kind.frag R.kind.frag_isFrag R.key _).toHClosed.handle clk g ⟨[], by simp⟩
  timers := fun t ht => ((timers_fine cf t).closed.handle cf clk g ht)

theorem Grow.trans {a b c : GState} (h1 : Grow cf R a b) (h2 : Grow cf R b c) : Grow cf R a c where
  black := fun h => h2.black (h1.black h)
  frags := by
    obtain ⟨r, e⟩ := h1.frags
    obtain ⟨r', e'⟩ := h2.frags
    exact ⟨r ++ r', by rw [e', e]; simp⟩
  timers := fun g hg => h2.timers g (h1.timers g hg)

/-- Signing the statement of the round and handling the fragment: it has arrived. -/
theorem own_signed (J : L.JsonLaws) (B : L.BlsLaws pub) (hS : Keyed cf pub)
    {g : GossipObj} (hid : g.getID = R.key0) (hp : g.payload = R.pay) :
    ∃ f, generateFRAG cf g = some f ∧ f.type.isFrag = true ∧ OwnSig cf.crypto R f.sig ∧ ∀ (s1 : GState) (clk : Clock), FullsSent cf s1 →
      Arrived cf R.pay.p0 R.kind.frag R.key f.sig (handle cf clk s1 f).1 ∧
      (s1.blacklist.has R.pay.p0 = true ∨ Kept cf R.kind.frag R.key f.sig (handle cf clk s1 f).1) := by
  have hty : g.type = R.kind.init := congrArg GossipID.type hid
  have hper : g.period = R.period := congrArg GossipID.period hid
  cases hf : generateFRAG cf g with
  | none =>
    unfold generateFRAG at hf
    rw [thresholdSign_eq _ hS.bls] at hf
    obtain ⟨str, h1, _⟩ := C10_fragment_roundtrip J pub B (L.blsSign cf.crypto.thresholdSecretKey g.payload.cat) cf.crypto.selfID hS.safe
    simp only [h1] at hf
    cases hf
  | some f =>
    refine ⟨f, rfl, ?_⟩
    have hft := generateFRAG_type hf
    have e1 : f.type = R.kind.frag := by rw [hft, hty]; cases R.kind <;> rfl
    unfold generateFRAG at hf
    split at hf
    · cases hf
    · rename_i str hstr
      have e2 : f.payload = R.pay := by cases hf; exact hp
      have e3 : f.getID = R.key := by
        have e4 : f.period = R.period := by cases hf; exact hper
        simp only [GossipObj.getID, e1, e2, e4, Round.key]
      have hfr : f.type.isFrag = true := by rw [e1]; exact R.kind.frag_isFrag
      refine ⟨hfr, ?_, ?_⟩
      rotate_left
      · intro s1 clk hsent
        have ha := Arrived.handled hsent clk f hfr
        have hk := Kept.handled hsent clk f hfr
        rw [e1, e2, e3] at ha
        rw [e1, e2, e3] at hk
        exact ⟨ha, hk⟩
      cases hf
      unfold OwnSig
      rw [← hp]; exact hstr

theorem key0_payload {g : GossipObj} (hg : InitOK R g) (h : g.getID = R.key0) : g.payload = R.pay :=
  (hg (congrArg GossipID.entity h)).1

theorem has_putObj {s : Storage} {t : GType} {g : GossipObj} {k : GossipID} (hobj : g.type.isObj = true)
    (h : ((s.putObj g.type g.getID g).objs t).has k = true) : (s.objs t).has k = true ∨ (g.type = t ∧ g.getID = k) := by
  by_cases e : t = g.type
  · subst e
    rw [Storage.objs_putObj_same _ _ _ _ hobj, GoMap.has_set] at h
    by_cases e' : g.getID = k
    · exact .inr ⟨rfl, e'⟩
    · refine .inl ?_
      have e2 : ¬ k = g.getID := fun x => e' x.symm
      simpa [e', e2] using h
  · rw [Storage.objs_putObj_ne _ _ _ e] at h; exact .inl h

/-- Handling an object. -/
theorem Own.handle {s : GState} (ho : Own cf R s) (hsent : FullsSent cf s) (J : L.JsonLaws) (B : L.BlsLaws pub)
    (hS : Keyed cf pub) (clk : Clock) (g : GossipObj) (hg : MsgOK cf.crypto pub R g) :
    Own cf R (CTng.handle cf clk s g).1 := by
  have hG := Grow.handle (cf := cf) (R := R) clk s g
  have F := FullsSent.closed cf
  have keep : (∀ t : GType, t.isInit = true → (CTng.handle cf clk s g).1.storage.objs t = s.storage.objs t) → Own cf R (CTng.handle cf clk s g).1 :=
    fun h => hG.own ho (by rw [h _ R.kind.init_isInit]; exact id)
  have hnc : R.kind.init ≠ .CON_INIT := by cases R.kind <;> simp [Kind.init]
  have sthrev : g.type = .STH_INIT ∨ g.type = .REV_INIT → Own cf R (CTng.handle cf clk s g).1 := by
    intro ht
    have hobj : g.type.isObj = true := by rcases ht with e | e <;> rw [e] <;> rfl
    by_cases hnew : g.getID = R.key0 ∧ g ∈ (CTng.handle cf clk s g).1.timers
    · exact fun _ => .inl ⟨g, hnew.2, hnew.1⟩
    refine hG.own ho ?_
    rw [handle_sthrev cf clk ht] at hnew ⊢
    split
    · exact id
    · rename_i hd
      split
      · exact id
      · rename_i hb
        rw [if_neg hd, if_neg hb] at hnew
        unfold handleInit at hnew ⊢
        split
        · exact id
        · rename_i hc1
          rw [if_neg hc1] at hnew
          split
          · exact id
          · rename_i hc2
            rw [if_neg hc2] at hnew
            split
            · rw [objs_handle_con cf clk s _ rfl _ hnc]; exact id
            · rename_i hm
              rw [if_neg hm] at hnew
              rcases storeGossipObject_cases cf clk s g hobj (by simpa using hd) with ⟨_, e⟩ | ⟨_, e⟩ | ⟨hv, e⟩ <;> simp only [e] at hnew ⊢
              · exact id
              · exact id
              · intro hh
                simp only [storage_sendToMonitor, storage_sendToGossipers, storage_storedState] at hh
                rcases has_putObj hobj hh with h | ⟨_, h⟩
                · exact h
                · exact absurd ⟨h, by simp⟩ hnew
  cases hty : g.type with
  | STH_INIT => exact sthrev (.inl hty)
  | REV_INIT => exact sthrev (.inr hty)
  | ACC_INIT =>
    have hobj : g.type.isObj = true := by rw [hty]; rfl
    rw [handle_acc cf clk hty]
    split
    · exact ho
    · rename_i hd
      split
      · exact ho
      · rename_i hb0
        unfold handleAcc
        split
        · exact ho
        · split
          · exact ho
          · rcases storeGossipObject_cases cf clk s g hobj (by simpa using hd) with ⟨_, e⟩ | ⟨_, e⟩ | ⟨hv, e⟩ <;> simp only [e]
            · exact ho
            · exact ho
            · have hG1 : Grow cf R s (storedState cf clk s g) := by
                refine ⟨?_, ⟨[], by simp⟩, by simp⟩
                intro h; simp [blacklist_storedState, h]
              have hbs : inBlacklist (storedState cf clk s g) g.payload.p0 = inBlacklist s g.payload.p0 := by
                unfold inBlacklist; rw [blacklist_storedState]; simp [hty]
              split
              · rename_i hb
                exact absurd (hbs ▸ hb) hb0
              · rename_i hb1
                unfold signStatement
                by_cases hk : g.type = R.kind.init ∧ g.getID = R.key0
                · have hpay := key0_payload (hg.init hk.1 hv) hk.2
                  obtain ⟨f, h1, _, h2, h3⟩ := own_signed J B hS hk.2 hpay
                  simp only [h1, Option.map_some]
                  have h4 := h3 ((storedState cf clk s g).emit [.signed f]) clk ?_
                  · refine fun _ => .inr ⟨f.sig, h2, h4.1, fun _ => ?_⟩
                    rcases h4.2 with h | h
                    · exfalso
                      rw [← hpay] at h
                      exact hb1 h
                    · exact h
                  exact F.signed _ g f (F.acc clk s g hsent hty hv (by simpa using hd) (by simpa using hb0)) (by rw [hty]; rfl) h1 (by simpa using hb1)
                · have hold : ((storedState cf clk s g).storage.objs R.kind.init).has R.key0 = true → (s.storage.objs R.kind.init).has R.key0 = true := by
                    intro hh
                    rw [storage_storedState] at hh
                    rcases has_putObj hobj hh with h | ⟨e, h⟩
                    · exact h
                    · exact absurd ⟨e, h⟩ hk
                  cases hf : generateFRAG cf g with
                  | none => exact hG1.own ho hold
                  | some f =>
                    simp only [Option.map_some]
                    have hft : f.type.isFrag = true := by
                      have := generateFRAG_type hf
                      cases hgt : g.type <;> simp_all [GType.isFrag]
                    refine ((hG1.trans ?_).trans (Grow.handle clk ((storedState cf clk s g).emit [.signed f]) f)).own ho ?_
                    · exact ⟨id, ⟨[], by simp⟩, fun _ h => h⟩
                    · rw [objs_handle_frag cf clk _ f hft _ R.kind.init_isInit]
                      exact hold
  | CON_INIT => exact keep (fun t ht => objs_handle_con cf clk s g hty t (by rintro rfl; cases ht))
  | STH_FRAG => exact keep (fun t ht => objs_handle_frag cf clk s g (by rw [hty]; rfl) t ht)
  | REV_FRAG => exact keep (fun t ht => objs_handle_frag cf clk s g (by rw [hty]; rfl) t ht)
  | ACC_FRAG => exact keep (fun t ht => objs_handle_frag cf clk s g (by rw [hty]; rfl) t ht)
  | STH_FULL => exact keep (fun t ht => objs_handle_full cf clk s g (by rw [hty]; rfl) t ht)
  | REV_FULL => exact keep (fun t ht => objs_handle_full cf clk s g (by rw [hty]; rfl) t ht)
  | ACC_FULL => exact keep (fun t ht => objs_handle_full cf clk s g (by rw [hty]; rfl) t ht)
  | other t => rw [handle_other cf clk (by rw [hty]; rfl)]; exact ho

/-- One event other than the wipe. -/
theorem Own.step {s : GState} (ho : Own cf R s) (hr : GReach cf s) (hn : NodeOK cf pub R s) (J : L.JsonLaws) (B : L.BlsLaws pub)
    (hS : Keyed cf pub) {opt : Bool} (hMo : Mode cf R opt) (hp : R.pay.p0 ≠ []) (e : Clock × GOp) (he : e.2 ≠ .periodic)
    (hm : ∀ n d, e.2 = .recv n d → ArrOK opt cf.crypto pub R d) : Own cf R (gstep cf s e) := by
  obtain ⟨clk, op⟩ := e
  have hsent := hr.fullsSent
  have same : ∀ s' : GState, (∀ t, s'.storage.objs t = s.storage.objs t) → (∀ t k, s'.storage.fragList t k = s.storage.fragList t k) →
      s'.blacklist = s.blacklist → s'.timers = s.timers → Own cf R s' := by
    intro s' h1 h2 h3 h4
    exact Grow.own (s := s) ⟨by rw [h3]; exact id, ⟨[], by rw [h2]; simp⟩, by rw [h4]; exact fun _ h => h⟩ ho (by rw [h1]; exact id)
  unfold gstep
  split
  · exact ho
  cases op with
  | recv n d =>
    have hd := hm n d rfl
    simp only
    unfold gossipObjectHandler
    simp only
    have h0 : Own cf R { s with trafficReceived := s.trafficReceived + n } := ho
    by_cases hc : n > cf.optThreshold ∧ d.type = .REV_INIT
    · rw [if_pos hc]
      have hnf : ¬ (cf.optMode = true ∧ d.type = .REV_FRAG) := by rw [hc.2]; simp
      rcases hs : savePayload cf { s with trafficReceived := s.trafficReceived + n } d with ⟨s1, b⟩
      rcases savePayload_eq cf { s with trafficReceived := s.trafficReceived + n } d with e | ⟨hv, e⟩
      · rw [hs] at e
        simp only at e
        subst e
        cases b
        · exact h0
        · simp only [hnf, if_false]
          exact h0.handle hsent J B hS clk d (hd.plain hMo hnf)
      · rw [hs] at e
        simp only at e
        have h1 : Own cf R s1 := by
          rw [e]; exact same _ (fun t => by cases t <;> rfl) (fun t k => by cases t <;> rfl) rfl rfl
        have hsent1 : FullsSent cf s1 := by
          rw [e]
          exact (FullsSent.seqClosed cf).payload _ d hsent hc.2 hv
        cases b
        · exact h1
        · simp only [hnf, if_false]
          exact h1.handle hsent1 J B hS clk d (hd.plain hMo hnf)
    · rw [if_neg hc]
      simp only
      by_cases hrf : cf.optMode = true ∧ d.type = .REV_FRAG
      · rw [if_pos hrf]
        refine h0.handle hsent J B hS clk _ ?_
        exact recon_ok (s := { s with trafficReceived := s.trafficReceived + n })
          ⟨hn.init, hn.timers, hn.frags, hn.fulls, hn.payload⟩ hr.storageInv hMo hp hrf.1 hrf.2 hd
      · rw [if_neg hrf]
        exact h0.handle hsent J B hS clk d (hd.plain hMo hrf)
  | notify n x => exact same _ (by simp) (by simp) (by simp) (by unfold notificationHandler; simp only; split <;> rfl)
  | request n x => exact same _ (by simp) (by simp) (by simp) (by unfold requestHandler; simp only; split <;> rfl)
  | periodic => exact absurd rfl he
  | fire i =>
    simp only
    cases ht : s.timers[i]? with
    | none => exact ho
    | some g =>
      simp only
      have hgm := List.mem_of_getElem? ht
      have hgi := hr.timersInit cf g hgm
      suffices h1 : Own cf R (timerFire cf clk { s with timers := s.timers.eraseIdx i } g).1 by
        rcases htf : timerFire cf clk { s with timers := s.timers.eraseIdx i } g with ⟨s', b⟩
        rw [htf] at h1
        cases b <;> exact h1
      by_cases hk : g.getID = R.key0
      · have hty : g.type = R.kind.init := congrArg GossipID.type hk
        have hpay := key0_payload (hn.timers g hgm hty) hk
        obtain ⟨f, h1, _, h2, h3⟩ := own_signed J B hS hk hpay
        have hna : R.kind ≠ .acc := by
          intro hk'
          rw [hk'] at hty
          rcases hr.timers cf g hgm with h | h <;> rw [hty] at h <;> cases h
        refine fun _ => .inr ⟨f.sig, h2, ?_, fun h => absurd h hna⟩
        unfold timerFire
        split
        · rename_i hb
          left
          have : g.payload.p0 = R.pay.p0 := by rw [hpay]
          rw [← this]; exact hb
        · rename_i hb
          unfold signStatement
          rw [h1]
          simp only [Option.map_some]
          refine (h3 _ clk ?_).1
          exact (FullsSent.seqClosed cf).signed _ g f ((FullsSent.seqClosed cf).disarm s i hsent) hgi h1 (by simpa using hb)
      · have h0 : Own cf R { s with timers := s.timers.eraseIdx i } := by
          intro hh
          rcases ho hh with ⟨g', hg', e⟩ | h
          · left
            refine ⟨g', ?_, e⟩
            rcases mem_eraseIdx_or ht hg' with h | h
            · exact h
            · exact absurd (h ▸ e) hk
          · exact .inr h
        unfold timerFire
        split
        · exact h0
        · rename_i hb
          unfold signStatement
          cases hf : generateFRAG cf g with
          | none => exact h0
          | some f =>
            simp only [Option.map_some]
            have h1 : Own cf R (({ s with timers := s.timers.eraseIdx i } : GState).emit [.signed f]) := h0
            refine h1.handle ?_ J B hS clk f (signed_ok hS hgi (hn.timers g hgm) hf)
            exact (FullsSent.seqClosed cf).signed _ g f ((FullsSent.seqClosed cf).disarm s i hsent) hgi hf (by simpa using hb)

end
end CTng
