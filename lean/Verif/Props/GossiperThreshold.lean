import Verif.Props.GossiperHonest
import Verif.Props.Crypto
/- C22, C27: from fragments to FULL objects. -/
set_option autoImplicit false

namespace CTng
variable {L : Lib}

/-- `f` is a fragment on the payload `pay`, made by a gossiper whose key `c` knows. -/
def GenuineFrag (c : CryptoConfig L) (pub : L.BlsSec → L.BlsPub) (pay : Pay3) (f : GossipObj) : Prop :=
  f.payload = pay ∧ ∃ signer : CryptoConfig L, RegisteredSigner c pub signer ∧ Safe signer.selfID ∧
    (signer.thresholdSign pay.cat).1.toStr = some f.sig.s0

theorem GenuineFrag.decode {c : CryptoConfig L} {pub : L.BlsSec → L.BlsPub} {pay : Pay3} {f : GossipObj}
    (J : L.JsonLaws) (B : L.BlsLaws pub) (h : GenuineFrag c pub pay f) :
    ∃ signer : CryptoConfig L, RegisteredSigner c pub signer ∧ Safe signer.selfID ∧
      (SigFragment.fromStr L f.sig.s0).1 = (signer.thresholdSign pay.cat).1 := by
  obtain ⟨_, signer, hr, hs, h⟩ := h
  refine ⟨signer, hr, hs, ?_⟩
  rw [thresholdSign_eq signer hr.1] at h ⊢
  obtain ⟨str, h1, h2⟩ := C10_fragment_roundtrip J pub B (L.blsSign signer.thresholdSecretKey pay.cat) signer.selfID hs
  simp only at h
  rw [h1] at h
  cases h
  rw [h2]

/-- Genuine fragments on one payload, at least Threshold (and at least one), give a FULL object that verifies. -/
theorem generateFULL_genuine {cf : GConf L} {pub : L.BlsSec → L.BlsPub} (J : L.JsonLaws) (B : L.BlsLaws pub)
    (hb : cf.crypto.thresholdScheme = go!"bls") (clk : Clock) (pay : Pay3) (hp : pay.p0 ≠ []) (gs : List GossipObj)
    (hne : gs ≠ []) (hl : cf.crypto.threshold ≤ (gs.length : Int)) (hg : ∀ f ∈ gs, GenuineFrag cf.crypto pub pay f)
    (t : GType) (ht : t.isFull = true) :
    ∃ o, generateFULL cf clk gs t = some o ∧ o.verify cf.crypto = .ok ∧ o.payload = pay ∧ o.type = t := by
  have hall : ∀ l : List GossipObj, (∀ f ∈ l, GenuineFrag cf.crypto pub pay f) → ∃ signers : List (CryptoConfig L),
      signers.length = l.length ∧ (∀ s ∈ signers, RegisteredSigner cf.crypto pub s ∧ Safe s.selfID) ∧
      l.map (fun g => (SigFragment.fromStr L g.sig.s0).1) = signers.map fun s => (s.thresholdSign pay.cat).1 := by
    intro l
    induction l with
    | nil => intro _; exact ⟨[], rfl, by simp, rfl⟩
    | cons f l ih =>
      intro h
      obtain ⟨ss, h1, h2, h3⟩ := ih (fun g hg => h g (by simp [hg]))
      obtain ⟨s, hr, hs, he⟩ := (h f (by simp)).decode J B
      refine ⟨s :: ss, by simp [h1], ?_, by simp [he, h3]⟩
      intro s' hs'
      rcases List.mem_cons.1 hs' with rfl | hs'
      · exact ⟨hr, hs⟩
      · exact h2 s' hs'
  obtain ⟨ss, h1, h2, h3⟩ := hall gs hg
  have hss : ss ≠ [] := by
    intro e; rw [e] at h1; exact hne (List.length_eq_zero_iff.1 h1.symm)
  obtain ⟨τ, ha, hv, hids, _⟩ := C08_threshold_signing_complete pub B cf.crypto hb ss hss (fun s hs => (h2 s hs).1)
    (by rw [h1]; exact hl) pay.cat _ (List.Perm.of_eq h3)
  cases gs with
  | nil => exact absurd rfl hne
  | cons g0 rest =>
    obtain ⟨ids, sg⟩ := τ
    cases sg with
    | none =>
      exfalso
      unfold CryptoConfig.thresholdAggregate thresholdAggregate at ha
      rw [if_pos hb] at ha
      split at ha
      · cases ha
      · split at ha <;> cases ha
    | some σ =>
      obtain ⟨str, hstr⟩ : ∃ str, ThresholdSig.toStr L ⟨ids, some σ⟩ = some str := ⟨_, rfl⟩
      have hsafe : ∀ i ∈ ids, Safe i := by
        intro i hi
        obtain ⟨s, hs, rfl⟩ := List.mem_map.1 (hids.mem_iff.1 hi)
        exact (h2 s hs).2
      have hrt := thresholdSig_roundtrip J pub B σ ids hsafe str hstr
      refine ⟨{ application := CTNG_APPLICATION, type := t, period := clk.period, signer := [],
                signers := (g0 :: rest).map (·.signer), sig := ⟨str, []⟩, timestamp := clk.timestamp,
                cryptoScheme := go!"bls", payload := g0.payload },
        by unfold generateFULL; rw [ha]; simp only [hstr], ?_, (hg g0 (by simp)).1, rfl⟩
      rw [full_verify_iff _ _ ht]
      have hpay := (hg g0 (by simp)).1
      refine ⟨by rw [hpay]; exact hp, ?_, hb, ?_⟩
      · simp only [ThresholdSig.toStr, Option.map_some, Option.some.injEq] at hstr
        rw [← hstr]; simp
      · simp only [hrt, hpay]
        unfold CryptoConfig.thresholdVerify ThresholdSig.verify at hv
        rw [if_pos hb] at hv
        revert hv
        simp only [Pay3.cat]
        cases L.blsFastAggVerify (some σ) (ids.map fun i => (cf.crypto.thresholdPublicMap.get i).getD L.blsZeroPub)
          (pay.p0 ++ pay.p1 ++ pay.p2) <;> simp

/-- A FULL object of type `tt` about `x` is held. -/
def HasFull (s : GState) (tt : GType) (x : Str) : Prop :=
  ∃ k o, (s.storage.objs tt).get k = some o ∧ o.payload.p0 = x

/-- Handling a FULL object that verifies: afterwards its entity is blacklisted or an object is held under its id. -/
theorem handle_full_valid (cf : GConf L) (clk : Clock) (s : GState) (o : GossipObj) (ht : o.type.isFull = true)
    (hv : o.verify cf.crypto = .ok) :
    (handle cf clk s o).1.blacklist.has o.payload.p0 = true ∨
    ∃ o', ((handle cf clk s o).1.storage.objs o.type).get o.getID = some o' ∧ (o' = o ∨ (s.storage.objs o.type).get o.getID = some o') := by
  have hobj : o.type.isObj = true := by cases h : o.type <;> simp_all [GType.isFull, GType.isObj]
  rw [handle_full cf clk ht]
  split
  · rename_i hd
    obtain ⟨o', h1, _⟩ := (dupCheck_obj hobj).1 hd
    exact .inr ⟨o', h1, .inr h1⟩
  · rename_i hd
    split
    · rename_i hb; exact .inl hb
    · rename_i hb
      unfold handleFull
      rw [if_neg hb]
      split
      · rcases storeGossipObject_cases cf clk s o hobj (by simpa using hd) with ⟨h, _⟩ | ⟨⟨e, h⟩, _⟩ | ⟨_, h⟩
        · rw [hv] at h; cases h
        · rw [hv] at h; cases h
        · simp only [h]
          exact .inr ⟨o, by simp [Storage.objs_putObj_same _ _ _ _ hobj], .inl rfl⟩
      · rename_i hc
        have : (s.storage.objs o.type).has o.getID = true := by
          cases h : (s.storage.objs o.type).has o.getID with
          | true => rfl
          | false => exact absurd (by unfold itemCount; cases h' : o.type <;> simp_all [GType.isFull]) hc
        obtain ⟨o', h'⟩ := (GoMap.has_iff _ _).1 this
        exact .inr ⟨o', by rw [storage_noteConverge]; exact h', .inr h'⟩

/-- What handling a fragment does to the list of fragments of one statement. -/
theorem handle_frag_list (cf : GConf L) (clk : Clock) (s : GState) (g : GossipObj) (hg : g.type.isFrag = true) (t : GType)
    (k : GossipID) :
    let s' := (handle cf clk s g).1
    s'.storage.fragList t k = s.storage.fragList t k ∨
    (g.type = t ∧ g.getID = k ∧ s'.storage.fragList t k = s.storage.fragList t k ++ [g] ∧
      ((s.storage.fragList t k).length : Int) + 1 ≤ cf.crypto.threshold ∧
      (((s.storage.fragList t k).length : Int) + 1 = cf.crypto.threshold →
        generateFULL cf clk (s.storage.fragList t k ++ [g]) g.getTargetType = none ∨
        ∃ o s1, generateFULL cf clk (s.storage.fragList t k ++ [g]) g.getTargetType = some o ∧
          s1.storage = s.storage.appendFrag t k g ∧ s1.blacklist = s.blacklist ∧
          s'.storage = (handle cf clk s1 o).1.storage ∧ s'.blacklist = (handle cf clk s1 o).1.blacklist)) := by
  intro s'
  have hs' : s' = (handle cf clk s g).1 := rfl
  clear_value s'
  have full : ∀ (s : GState) (o : GossipObj) t k, o.type.isFull = true →
      (handle cf clk s o).1.storage.fragList t k = s.storage.fragList t k := by
    intro s o t k ht
    rcases handle_full_cases cf clk s o ht with h | h | ⟨_, h⟩ | ⟨_, _, _, h⟩ <;> rw [h] <;> simp
  rw [handle_frag cf clk hg] at hs'
  split at hs'
  · rw [hs']; exact .inl rfl
  · split at hs'
    · rw [hs']; exact .inl rfl
    · unfold handleFrag at hs'
      split at hs'
      · rw [hs']; exact .inl rfl
      · rw [readAndStore_frag cf hg] at hs'
        by_cases hl : ((s.storage.fragList g.type g.getID).length : Int) < cf.crypto.threshold
        · rw [if_pos hl] at hs'
          by_cases hk : g.type = t ∧ g.getID = k
          · obtain ⟨rfl, rfl⟩ := hk
            right
            refine ⟨rfl, rfl, ?_⟩
            simp only [hl, if_true] at hs'
            by_cases hc : ((s.storage.fragList g.type g.getID).length : Int) = cf.crypto.threshold - 1
            · rw [if_pos hc] at hs'
              simp only [getObjectList, Storage.fragList_appendFrag_same _ _ _ _ hg] at hs'
              cases hgen : generateFULL cf clk (s.storage.fragList g.type g.getID ++ [g]) g.getTargetType with
              | none =>
                rw [hgen] at hs'
                simp only at hs'
                refine ⟨?_, by omega, fun _ => .inl rfl⟩
                rw [hs']; simp [Storage.fragList_appendFrag_same _ _ _ _ hg]
              | some o =>
                rw [hgen] at hs'
                simp only at hs'
                have hot : o.type.isFull = true := by rw [generateFULL_type hgen]; exact getTargetType_isFull hg
                have hf := full (({ s with storage := s.storage.appendFrag g.type g.getID g } : GState).emit [.generatedFull g.getID o]) o
                  g.type g.getID hot
                generalize hs1 : ({ s with storage := s.storage.appendFrag g.type g.getID g } : GState).emit
                  [.generatedFull g.getID o] = s1 at hs' hf
                have e1 : s1.storage = s.storage.appendFrag g.type g.getID g := by rw [← hs1]; rfl
                have e2 : s1.blacklist = s.blacklist := by rw [← hs1]; rfl
                rw [e1, Storage.fragList_appendFrag_same _ _ _ _ hg] at hf
                rcases hr : handle cf clk s1 o with ⟨s2, b⟩
                rw [hr] at hs' hf
                have h3 : s'.storage = s2.storage ∧ s'.blacklist = s2.blacklist := by
                  cases b <;> simp only at hs' <;> rw [hs'] <;> simp
                exact ⟨by rw [h3.1]; exact hf, by omega, fun _ => .inr ⟨o, s1, rfl, e1, e2, by rw [hr]; exact h3.1, by rw [hr]; exact h3.2⟩⟩
            · rw [if_neg hc] at hs'
              simp only at hs'
              refine ⟨?_, by omega, fun h => by omega⟩
              rw [hs']; simp [Storage.fragList_appendFrag_same _ _ _ _ hg]
          · left
            have e' : t ≠ g.type ∨ k ≠ g.getID := by
              by_cases h1 : t = g.type
              · right; intro h2; exact hk ⟨h1.symm, h2.symm⟩
              · exact .inl h1
            have h0 := Storage.fragList_appendFrag_ne s.storage g e'
            simp only [hl, if_true] at hs'
            split at hs'
            · rename_i s1 h
              split at h
              · split at h
                · cases h; rw [hs']; exact h0
                · rename_i o hgen
                  have := full (({ s with storage := s.storage.appendFrag g.type g.getID g } : GState).emit [.generatedFull g.getID o]) o t k
                    (by rw [generateFULL_type hgen]; exact getTargetType_isFull hg)
                  rw [h] at this
                  rw [hs']; exact this.trans h0
              · cases h
            · rename_i s1 h
              rw [hs', storage_sendToGossipers]
              split at h
              · split at h
                · cases h
                · rename_i o hgen
                  have := full (({ s with storage := s.storage.appendFrag g.type g.getID g } : GState).emit [.generatedFull g.getID o]) o t k
                    (by rw [generateFULL_type hgen]; exact getTargetType_isFull hg)
                  rw [h] at this
                  exact this.trans h0
              · cases h; exact h0
        · rw [if_neg hl] at hs'
          have hne : ¬ (((s.storage.fragList g.type g.getID).length : Int) = cf.crypto.threshold - 1) := by omega
          simp only [hne, hl, if_false] at hs'
          rw [hs']; exact .inl rfl


/-! ### C27 -/

/-- The FULL type a fragment type is aggregated to. -/
def fragTarget : GType → GType
  | .STH_FRAG => .STH_FULL
  | .REV_FRAG => .REV_FULL
  | .ACC_FRAG => .ACC_FULL
  | t => t

theorem getTargetType_frag {g : GossipObj} (h : g.type.isFrag = true) : g.getTargetType = fragTarget g.type := by
  unfold GossipObj.getTargetType fragTarget; cases h' : g.type <;> simp_all [GType.isFrag]

/-- Held FULL objects verify, are filed under their own id, and were sent to the owner. -/
def FullsSent (cf : GConf L) (s : GState) : Prop :=
  ∀ t k o, t.isFull = true → (s.storage.objs t).get k = some o →
    o.verify cf.crypto = .ok ∧ o.getID = k ∧ o.type = t ∧ .owner o ∈ s.out

theorem FullsSent.grow {cf : GConf L} {s s' : GState} (h : FullsSent cf s)
    (he : ∀ t, t.isFull = true → s'.storage.objs t = s.storage.objs t) (ho : ∀ x ∈ s.out, x ∈ s'.out) : FullsSent cf s' := by
  intro t k o ht hk
  rw [he t ht] at hk
  obtain ⟨a, b, c, d⟩ := h t k o ht hk
  exact ⟨a, b, c, ho _ d⟩

theorem out_sendToGossipers_sub (cf : GConf L) (s : GState) (g : GossipObj) :
    ∀ x ∈ s.out, x ∈ (sendToGossipers cf s g).out := by
  intro x hx
  unfold sendToGossipers
  simp only
  split <;> simp [hx]

theorem FullsSent.closed (cf : GConf L) : Closed cf (FullsSent cf) where
  init := by
    intro clk s g hs ht _ _ _ _
    refine hs.grow ?_ ?_
    · intro t ht'
      simp only [storage_sendToMonitor, storage_sendToGossipers, storage_storedState]
      exact Storage.objs_putObj_ne _ _ _ (by intro e; subst e; rcases ht with h | h <;> rw [h] at ht' <;> simp [GType.isFull] at ht')
    · intro x hx
      simp only [out_sendToMonitor]
      exact List.mem_append_left _ (out_sendToGossipers_sub cf _ g x (by simpa using hx))
  acc := by
    intro clk s g hs ht _ _ _
    refine hs.grow ?_ (by intro x hx; simpa using hx)
    intro t ht'
    simp only [storage_storedState]
    exact Storage.objs_putObj_ne _ _ _ (by intro e; subst e; rw [ht] at ht'; simp [GType.isFull] at ht')
  con := by
    intro clk s g hs ht _ _ _ _
    refine hs.grow ?_ ?_
    · intro t ht'
      simp only [storage_sendToMonitor, storage_sendToGossipers, storage_storedState]
      exact Storage.objs_putObj_ne _ _ _ (by intro e; subst e; rw [ht] at ht'; simp [GType.isFull] at ht')
    · intro x hx
      simp only [out_sendToMonitor]
      exact List.mem_append_left _ (out_sendToGossipers_sub cf _ g x (by simpa using hx))
  full := by
    intro clk s g hs ht hv _ _ _ t k o ht' hk
    have hobj : g.type.isObj = true := by cases h : g.type <;> simp_all [GType.isFull, GType.isObj]
    simp only [storage_sendToMonitor, storage_storedState] at hk
    by_cases e : t = g.type
    · subst e
      rw [Storage.objs_putObj_same _ _ _ _ hobj, GoMap.get_set] at hk
      split at hk
      · rename_i e; cases hk; exact ⟨hv, e.symm, rfl, by simp⟩
      · obtain ⟨a, b, c, d⟩ := hs _ k o ht' hk
        exact ⟨a, b, c, by simp [d]⟩
    · rw [Storage.objs_putObj_ne _ _ _ e] at hk
      obtain ⟨a, b, c, d⟩ := hs _ k o ht' hk
      exact ⟨a, b, c, by simp [d]⟩
  fullRefused := fun s g hs _ _ => hs.grow (by simp) (by intro x hx; simp [hx])
  frag := fun s g hs _ _ _ _ => hs.grow (by simp) (by intro x hx; exact hx)
  fragPeers := fun s g hs _ => hs.grow (by simp) (out_sendToGossipers_sub cf s g)
  signed := fun s g f hs _ _ _ => hs.grow (by simp) (by intro x hx; simp [hx])
  gen := fun _ s g o hs _ _ => hs.grow (by simp) (by intro x hx; simp [hx])
  note := fun clk s hs => hs.grow (by simp) (by intro x hx; simpa using hx)

theorem FullsSent.seqClosed (cf : GConf L) : SeqClosed cf (FullsSent cf) where
  toHClosed := (FullsSent.closed cf).hclosed
  received := fun s n hs => hs.grow (fun _ _ => rfl) (fun _ h => h)
  payload := fun s g hs _ _ => hs.grow (fun t _ => by cases t <;> rfl) (fun _ h => h)
  ask := by
    intro s n x hs
    refine hs.grow (by simp) ?_
    intro y hy; unfold notificationHandler; simp only; split <;> simp [hy]
  answer := by
    intro s n x hs
    refine hs.grow (by simp) ?_
    intro y hy; unfold requestHandler; simp only; split <;> simp [hy]
  disarm := fun s i hs => hs.grow (fun _ _ => rfl) (fun _ h => h)
  crash := fun s hs => hs.grow (fun _ _ => rfl) (fun _ h => h)

theorem GReach.fullsSent {cf : GConf L} {s : GState} (h : GReach cf s) : FullsSent cf s := by
  refine (FullsSent.seqClosed cf).reach cf ?_ ?_ h
  · intro t k o _ hk; simp [GState.init] at hk
  · intro clk s hs t k o ht hk
    rw [storage_periodicTask] at hk
    cases t <;> simp_all [GType.isFull, Storage.objs, Storage.init]

section
variable (cf : GConf L)

/-- A held FULL object stays held until the next wipe. -/
theorem hasFull_closed (tt : GType) (htt : tt.isFull = true) (x : Str) : SeqClosed cf (fun s => HasFull s tt x) := by
  refine FineClosed.core cf ?_ ?_ ?_ ?_
  · intro s s' h1 _ ⟨k, o, h⟩; exact ⟨k, o, by rw [← h1]; exact h⟩
  · intro clk s g ⟨k, o, h, hx⟩ hobj _ _ _ hc
    by_cases e : tt = g.type
    · by_cases e' : k = g.getID
      · subst e; subst e'
        have := hc (.inl htt)
        unfold itemCount at this
        have hh : (s.storage.objs g.type).has g.getID = true := (GoMap.has_iff _ _).2 ⟨o, h⟩
        cases h' : g.type <;> simp_all [GType.isFull]
      · refine ⟨k, o, ?_, hx⟩
        rw [storage_storedState, e, Storage.objs_putObj_same _ _ _ _ hobj, GoMap.get_set_ne _ _ e', ← e]; exact h
    · exact ⟨k, o, by rw [storage_storedState, Storage.objs_putObj_ne _ _ _ e]; exact h, hx⟩
  · intro s g ⟨k, o, h, hx⟩ _ _ _ _; exact ⟨k, o, by simpa using h, hx⟩
  · intro s g ⟨k, o, h, hx⟩ _ _; exact ⟨k, o, by cases tt <;> exact h, hx⟩

/-- The list of kept fragments only grows until the next wipe. -/
theorem fragList_closed (t : GType) (ht : t.isFrag = true) (k : GossipID) (p : List GossipObj) :
    SeqClosed cf (fun s => ∃ r, s.storage.fragList t k = p ++ r) := by
  refine FineClosed.core cf ?_ ?_ ?_ ?_
  · intro s s' h1 _ h; rw [← h1]; exact h
  · intro clk s g h _ _ _ _ _; simpa using h
  · intro s g ⟨r, h⟩ _ _ _ _
    by_cases e : t = g.type ∧ k = g.getID
    · obtain ⟨rfl, rfl⟩ := e
      exact ⟨r ++ [g], by simp [Storage.fragList_appendFrag_same _ _ _ _ ht, h]⟩
    · have e' : t ≠ g.type ∨ k ≠ g.getID := by by_cases h1 : t = g.type <;> simp_all
      exact ⟨r, by simpa [Storage.fragList_appendFrag_ne _ _ e'] using h⟩
  · intro s g h _ _; cases t <;> exact h

/-- Once blacklisted, always blacklisted. -/
theorem blacklist_closed (x : Str) : SeqClosed cf (fun s => s.blacklist.has x = true) := by
  refine FineClosed.core cf ?_ ?_ ?_ ?_
  · intro s s' _ h1 h; rw [← h1]; exact h
  · intro clk s g h _ _ _ _ _; simp [blacklist_storedState, h]
  · intro s g h _ _ _ _; exact h
  · intro s g h _ _; exact h

/-- Blacklisting during a round has a cause that is held. -/
theorem cause_closed (x : Str) : SeqClosed cf (fun s => s.blacklist.has x = true →
    (∃ k o, s.storage.conInit.get k = some o ∧ o.payload.p0 = x) ∨ HasFull s .ACC_FULL x) := by
  refine FineClosed.core cf ?_ ?_ ?_ ?_
  · intro s s' h1 h2 h
    unfold HasFull at h ⊢
    rw [← h1, ← h2]; exact h
  · intro clk s g h hobj hv hd hb hc hx
    rw [blacklist_storedState] at hx
    simp only [storage_storedState]
    by_cases hn : s.blacklist.has x = true
    · rcases h hn with ⟨k, o, h1, h2⟩ | hf
      · left
        by_cases e : g.type = .CON_INIT
        · have e2 := Storage.objs_putObj_same s.storage g.type g.getID g hobj
          rw [e] at e2
          change (s.storage.putObj .CON_INIT g.getID g).conInit = s.storage.conInit.set g.getID g at e2
          rw [e, e2]
          by_cases e3 : k = g.getID
          · exact ⟨g.getID, g, by simp, by
              have hcount := hc (.inr e)
              unfold itemCount at hcount
              rw [e] at hcount
              have : (s.storage.objs .CON_INIT).has g.getID = true := (GoMap.has_iff _ _).2 ⟨o, by rw [← e3]; exact h1⟩
              simp [this] at hcount⟩
          · exact ⟨k, o, by rw [GoMap.get_set_ne _ _ e3]; exact h1, h2⟩
        · have := Storage.objs_putObj_ne s.storage g.getID g (t' := .CON_INIT) (t := g.type) (Ne.symm e)
          change (s.storage.putObj g.type g.getID g).conInit = s.storage.conInit at this
          exact ⟨k, o, by rw [this]; exact h1, h2⟩
      · right
        by_cases e : g.type = .ACC_FULL
        · by_cases hh : ∃ k o, (s.storage.objs .ACC_FULL).get k = some o ∧ o.payload.p0 = x ∧ k ≠ g.getID
          · obtain ⟨k, o, a, b, c⟩ := hh
            refine ⟨k, o, ?_, b⟩
            rw [storage_storedState, e, Storage.objs_putObj_same _ _ _ _ (by rfl), GoMap.get_set_ne _ _ c]; exact a
          · exfalso
            obtain ⟨k, o, a, b⟩ := hf
            have e3 : k = g.getID := Classical.byContradiction fun hne => hh ⟨k, o, a, b, hne⟩
            have hcount := hc (.inl (by rw [e]; rfl))
            unfold itemCount at hcount
            rw [e] at hcount
            have : (s.storage.objs .ACC_FULL).has g.getID = true := (GoMap.has_iff _ _).2 ⟨o, by rw [← e3]; exact a⟩
            simp [this] at hcount
        · obtain ⟨k, o, a, b⟩ := hf
          exact ⟨k, o, by rw [storage_storedState, Storage.objs_putObj_ne _ _ _ (Ne.symm e)]; exact a, b⟩
    · simp only [hn, Bool.false_or, Bool.and_eq_true, decide_eq_true_eq] at hx
      obtain ⟨he, rfl⟩ := hx
      rcases he with e | e
      · left
        refine ⟨g.getID, g, ?_, rfl⟩
        have e2 := Storage.objs_putObj_same s.storage g.type g.getID g hobj
        rw [e] at e2
        change (s.storage.putObj .CON_INIT g.getID g).conInit = s.storage.conInit.set g.getID g at e2
        rw [e, e2]; simp
      · right
        exact ⟨g.getID, g, by rw [storage_storedState, e, Storage.objs_putObj_same _ _ _ _ (by rfl)]; simp, rfl⟩
  · intro s g h ht _ _ _ hx
    rcases h hx with ⟨k, o, a, b⟩ | ⟨k, o, a, b⟩
    · left
      have := Storage.objs_appendFrag s.storage g.type .CON_INIT g.getID g
      change (s.storage.appendFrag g.type g.getID g).conInit = s.storage.conInit at this
      exact ⟨k, o, by rw [this]; exact a, b⟩
    · exact .inr ⟨k, o, by simpa using a, b⟩
  · intro s g h _ _; exact h

end

/-- With Threshold kept fragments, all genuine: the entity is blacklisted or the FULL object is held. -/
structure RoundInv (cf : GConf L) (pub : L.BlsSec → L.BlsPub) (pay : Pay3) (t : GType) (k : GossipID) (s : GState) : Prop where
  sent : FullsSent cf s
  done : cf.crypto.threshold ≤ ((s.storage.fragList t k).length : Int) →
    (∀ f ∈ s.storage.fragList t k, GenuineFrag cf.crypto pub pay f) →
    s.blacklist.has pay.p0 = true ∨ HasFull s (fragTarget t) pay.p0

section
variable {cf : GConf L} {pub : L.BlsSec → L.BlsPub} {pay : Pay3} {t : GType} {k : GossipID}

theorem fragTarget_isFull (ht : t.isFrag = true) : (fragTarget t).isFull = true := by
  cases t <;> simp_all [GType.isFrag, fragTarget, GType.isFull]

/-- A change that keeps the fragment list. -/
theorem RoundInv.keep {s s' : GState} (h : RoundInv cf pub pay t k s) (h1 : FullsSent cf s')
    (h2 : s'.storage.fragList t k = s.storage.fragList t k)
    (h3 : s.blacklist.has pay.p0 = true → s'.blacklist.has pay.p0 = true)
    (h4 : HasFull s (fragTarget t) pay.p0 → HasFull s' (fragTarget t) pay.p0) : RoundInv cf pub pay t k s' := by
  refine ⟨h1, ?_⟩
  rw [h2]
  intro a b
  rcases h.done a b with h | h
  · exact .inl (h3 h)
  · exact .inr (h4 h)

theorem RoundInv.frag (J : L.JsonLaws) (B : L.BlsLaws pub) (hbls : cf.crypto.thresholdScheme = go!"bls") (hp : pay.p0 ≠ [])
    (ht : t.isFrag = true) (clk : Clock) (s : GState) (g : GossipObj) (hg : g.type.isFrag = true)
    (h : RoundInv cf pub pay t k s) : RoundInv cf pub pay t k (handle cf clk s g).1 := by
  have hsent := (FullsSent.closed cf).handle_frag clk h.sent hg
  have hbl := (blacklist_closed cf pay.p0).fragH clk s g
  have hfl := (hasFull_closed cf _ (fragTarget_isFull ht) pay.p0).fragH clk s g
  rcases handle_frag_list cf clk s g hg t k with e | ⟨rfl, rfl, e, hle, hgen⟩
  · exact h.keep hsent e (fun x => hbl x hg) (fun x => hfl x hg)
  · refine ⟨hsent, ?_⟩
    rw [e]
    intro hlen hall
    rw [List.length_append, List.length_singleton] at hlen
    obtain ⟨o, ho, hv, hpay, hty⟩ := generateFULL_genuine J B hbls clk pay hp _ (by simp) (by simpa using hlen) hall
      g.getTargetType (getTargetType_isFull hg)
    rcases hgen (by push_cast at hlen; omega) with hn | ⟨o', s1, ho', e1, e2, e3, e4⟩
    · rw [hn] at ho; cases ho
    · rw [ho] at ho'; cases ho'
      have hof : o.type.isFull = true := by rw [hty]; exact getTargetType_isFull hg
      rcases handle_full_valid cf clk s1 o hof hv with hb | ⟨o2, h1, h2⟩
      · left; rw [e4, ← hpay]; exact hb
      · right
        refine ⟨o.getID, o2, ?_, ?_⟩
        · rw [e3, ← getTargetType_frag hg, ← hty]; exact h1
        · rcases h2 with rfl | h2
          · rw [hpay]
          · have := (h.sent o.type o.getID o2 hof (by rw [e1] at h2; simpa using h2)).2.1
            have := congrArg GossipID.entity this
            simp only [GossipObj.getID] at this
            rw [this, hpay]

theorem RoundInv.seqClosed (J : L.JsonLaws) (B : L.BlsLaws pub) (hbls : cf.crypto.thresholdScheme = go!"bls")
    (hp : pay.p0 ≠ []) (ht : t.isFrag = true) : SeqClosed cf (RoundInv cf pub pay t k) := by
  have F := FullsSent.seqClosed cf
  have Bl := blacklist_closed cf pay.p0
  have H := hasFull_closed cf _ (fragTarget_isFull ht) pay.p0
  exact {
    init := fun clk s g h a b c d e => h.keep (F.init clk s g h.sent a b c d e) (by simp)
      (fun x => Bl.init clk s g x a b c d e) (fun x => H.init clk s g x a b c d e)
    acc := fun clk s g h a b c d => h.keep (F.acc clk s g h.sent a b c d) (by simp)
      (fun x => Bl.acc clk s g x a b c d) (fun x => H.acc clk s g x a b c d)
    con := fun clk s g h a b c d e => h.keep (F.con clk s g h.sent a b c d e) (by simp)
      (fun x => Bl.con clk s g x a b c d e) (fun x => H.con clk s g x a b c d e)
    full := fun clk s g h a b c d e => h.keep (F.full clk s g h.sent a b c d e) (by simp)
      (fun x => Bl.full clk s g x a b c d e) (fun x => H.full clk s g x a b c d e)
    fullRefused := fun s g h a b => h.keep (F.fullRefused s g h.sent a b) (by simp)
      (fun x => Bl.fullRefused s g x a b) (fun x => H.fullRefused s g x a b)
    fragH := fun clk s g h a => h.frag J B hbls hp ht clk s g a
    signed := fun s g f h a b c => h.keep (F.signed s g f h.sent a b c) (by simp)
      (fun x => Bl.signed s g f x a b c) (fun x => H.signed s g f x a b c)
    note := fun clk s h => h.keep (F.note clk s h.sent) (by simp) (fun x => Bl.note clk s x) (fun x => H.note clk s x)
    received := fun s n h => h.keep (F.received s n h.sent) rfl (fun x => x) (fun x => x)
    payload := fun s g h a b => h.keep (F.payload s g h.sent a b) (by cases t <;> rfl) (fun x => x) (fun x => H.payload s g x a b)
    ask := fun s n x h => h.keep (F.ask s n x h.sent) (by simp) (fun y => Bl.ask s n x y) (fun y => H.ask s n x y)
    answer := fun s n x h => h.keep (F.answer s n x h.sent) (by simp) (fun y => Bl.answer s n x y) (fun y => H.answer s n x y)
    disarm := fun s i h => h.keep (F.disarm s i h.sent) rfl (fun x => x) (fun x => x)
    crash := fun s h => h.keep (F.crash s h.sent) rfl (fun x => x) (fun x => x) }

end


theorem length_le_of_subset {α : Type _} {a b : List α} (hn : a.Nodup) (hs : ∀ x ∈ a, x ∈ b) : a.length ≤ b.length := by
  induction a generalizing b with
  | nil => simp
  | cons x t ih =>
    obtain ⟨l, r, rfl⟩ := List.append_of_mem (hs x (by simp))
    rw [List.nodup_cons] at hn
    have := ih (b := l ++ r) hn.2 (by
      intro y hy
      have h1 := hs y (by simp [hy])
      have h2 : y ≠ x := by rintro rfl; exact hn.1 hy
      simp only [List.mem_append, List.mem_cons] at h1 ⊢
      rcases h1 with h | h | h
      · exact .inl h
      · exact absurd h h2
      · exact .inr h)
    simp only [List.length_append, List.length_cons] at this ⊢
    omega

/-- The list is full or a fragment with signature pair `σ` is kept. -/
def Kept (cf : GConf L) (t : GType) (k : GossipID) (σ : Sig2) (s : GState) : Prop :=
  cf.crypto.threshold ≤ ((s.storage.fragList t k).length : Int) ∨ ∃ f ∈ s.storage.fragList t k, f.sig = σ

/-- What has become of a delivered fragment with signature pair `σ`. -/
def Arrived (cf : GConf L) (x : Str) (t : GType) (k : GossipID) (σ : Sig2) (s : GState) : Prop :=
  s.blacklist.has x = true ∨ Kept cf t k σ s

theorem Arrived.step {cf : GConf L} {x : Str} {t : GType} (ht : t.isFrag = true) {k : GossipID} {σ : Sig2} {s : GState}
    (hr : GReach cf s) (e : Clock × GOp) (he : e.2 ≠ .periodic) (h : Arrived cf x t k σ s) :
    Arrived cf x t k σ (gstep cf s e) := by
  obtain ⟨r, hl⟩ := (fragList_closed cf t ht k (s.storage.fragList t k)).step cf hr e he ⟨[], by simp⟩
  rcases h with h | h | ⟨f, hf, hσ⟩
  · exact .inl ((blacklist_closed cf x).step cf hr e he h)
  · refine .inr (.inl ?_)
    rw [hl, List.length_append]; push_cast; omega
  · exact .inr (.inr ⟨f, by rw [hl]; simp [hf], hσ⟩)

/-- Handling a fragment about an entity that is not blacklisted: the list is full or a fragment with its signature is kept. -/
theorem Kept.handled {cf : GConf L} {s1 : GState} (hsent : FullsSent cf s1) (clk : Clock) (d : GossipObj)
    (ht : d.type.isFrag = true) : s1.blacklist.has d.payload.p0 = true ∨ Kept cf d.type d.getID d.sig (handle cf clk s1 d).1 := by
  by_cases hd : dupCheck s1 d = true
  · rw [dup_again cf clk s1 d hd]
    obtain ⟨f, hf, h⟩ := (dupCheck_frag ht).1 hd
    exact .inr (.inr ⟨f, hf, h⟩)
  by_cases hb : s1.blacklist.has d.payload.p0 = true
  · exact .inl hb
  have hf : ¬ itemCount s1 d.getID (fullTypeOf d.type) > 0 := by
    intro h
    have hfull : (fullTypeOf d.type).isFull = true := by cases h' : d.type <;> simp_all [GType.isFrag, fullTypeOf, GType.isFull]
    have hh : (s1.storage.objs (fullTypeOf d.type)).has d.getID = true := by
      cases h2 : (s1.storage.objs (fullTypeOf d.type)).has d.getID with
      | true => rfl
      | false => unfold itemCount at h; cases h' : fullTypeOf d.type <;> simp_all [GType.isFull]
    obtain ⟨o, ho⟩ := (GoMap.has_iff _ _).1 hh
    obtain ⟨_, h2, h3, _⟩ := hsent _ _ _ hfull ho
    have h4 := congrArg GossipID.type h2
    simp only [GossipObj.getID] at h4
    rw [h3] at h4
    rw [h4] at hfull
    exact absurd ht (by simp [(isFull_leaf hfull).2])
  by_cases hl : ((s1.storage.fragList d.type d.getID).length : Int) < cf.crypto.threshold
  · exact .inr (.inr ⟨d, handle_frag_kept cf clk s1 d ht hd hb hf hl, rfl⟩)
  · right; left
    obtain ⟨r, h⟩ := (fragList_closed cf d.type ht d.getID (s1.storage.fragList d.type d.getID)).fragH clk s1 d ⟨[], by simp⟩ ht
    rw [h, List.length_append]; push_cast; omega

/-- Handling a fragment makes it arrive. -/
theorem Arrived.handled {cf : GConf L} {s1 : GState} (hsent : FullsSent cf s1) (clk : Clock) (d : GossipObj)
    (ht : d.type.isFrag = true) : Arrived cf d.payload.p0 d.type d.getID d.sig (handle cf clk s1 d).1 := by
  rcases Kept.handled hsent clk d ht with h | h
  · exact .inl ((blacklist_closed cf _).fragH clk s1 d h ht)
  · exact .inr h

theorem Arrived.deliver {cf : GConf L} {s : GState} (hr : GReach cf s) (clk : Clock) (n : Int) (d : GossipObj)
    (ht : d.type.isFrag = true) (hopt : cf.optMode = false ∨ d.type ≠ .REV_FRAG) (hcr : s.crashed = false) :
    Arrived cf d.payload.p0 d.type d.getID d.sig (gstep cf s (clk, .recv n d)) := by
  have e : gstep cf s (clk, .recv n d) = (handle cf clk { s with trafficReceived := s.trafficReceived + n } d).1 := by
    unfold gstep gossipObjectHandler
    rw [hcr]
    have h1 : ¬ (n > cf.optThreshold ∧ d.type = .REV_INIT) := by
      rintro ⟨_, h⟩; rw [h] at ht; simp [GType.isFrag] at ht
    have h2 : ¬ (cf.optMode = true ∧ d.type = .REV_FRAG) := by
      rintro ⟨a, b⟩; rcases hopt with h | h
      · rw [h] at a; cases a
      · exact h b
    simp only [h1, h2, if_false]
    rfl
  rw [e]
  exact .handled (s1 := { s with trafficReceived := s.trafficReceived + n }) hr.fullsSent clk d ht

theorem gstep_crashed (cf : GConf L) (s : GState) (e : Clock × GOp) (h : s.crashed = true) : gstep cf s e = s := by
  unfold gstep; rw [h]; rfl

theorem grun_crashed (cf : GConf L) (s : GState) (h : List (Clock × GOp)) (hc : s.crashed = true) : grun cf s h = s := by
  induction h with
  | nil => rfl
  | cons e t ih => rw [grun, List.foldl_cons, gstep_crashed cf s e hc]; exact ih

theorem Arrived.run {cf : GConf L} {s : GState} (hr : GReach cf s) (h : List (Clock × GOp)) (hw : ∀ e ∈ h, e.2 ≠ .periodic)
    (hcr : (grun cf s h).crashed = false) (d : GossipObj) (ht : d.type.isFrag = true)
    (hopt : cf.optMode = false ∨ d.type ≠ .REV_FRAG) (hd : ∃ clk n, (clk, .recv n d) ∈ h) :
    Arrived cf d.payload.p0 d.type d.getID d.sig (grun cf s h) := by
  obtain ⟨clk, n, hd⟩ := hd
  obtain ⟨a, b, rfl⟩ := List.append_of_mem hd
  have e : grun cf s (a ++ (clk, .recv n d) :: b) = grun cf (gstep cf (grun cf s a) (clk, .recv n d)) b := by
    simp [grun, List.foldl_append]
  have hra := hr.run cf a
  have hca : (grun cf s a).crashed = false := by
    cases hc : (grun cf s a).crashed with
    | false => rfl
    | true =>
      rw [e, gstep_crashed cf _ _ hc, grun_crashed cf _ _ hc, hc] at hcr; cases hcr
  rw [e]
  have h1 := Arrived.deliver hra clk n d ht hopt hca
  have hrb := hra.step cf (clk, .recv n d)
  have hwb : ∀ e ∈ b, e.2 ≠ .periodic := fun e he => hw e (by simp [he])
  clear e hcr hw hd
  generalize gstep cf (grun cf s a) (clk, .recv n d) = s1 at h1 hrb ⊢
  induction b generalizing s1 with
  | nil => exact h1
  | cons e t ih => exact ih (fun e' h' => hwb e' (by simp [h'])) _ (h1.step ht hrb e (hwb e (by simp))) (hrb.step cf e)

/-- Threshold deliveries with pairwise different signature pairs of fragments that are all genuine end with a FULL object. -/
theorem full_of_deliveries (J : L.JsonLaws) (cf : GConf L) (pub : L.BlsSec → L.BlsPub) (B : L.BlsLaws pub)
    (hbls : cf.crypto.thresholdScheme = go!"bls") (hT : 1 ≤ cf.crypto.threshold) (s : GState) (hs : GReach cf s)
    (h : List (Clock × GOp)) (hw : ∀ e ∈ h, e.2 ≠ .periodic) (hcr : (grun cf s h).crashed = false)
    (t : GType) (ht : t.isFrag = true) (hopt : cf.optMode = false ∨ t ≠ .REV_FRAG)
    (period : Str) (pay : Pay3) (hp : pay.p0 ≠ []) (hstart : s.storage.fragList t ⟨period, t, pay.p0⟩ = [])
    (hbl0 : s.blacklist.has pay.p0 = false)
    (hbl : (grun cf s h).blacklist.has pay.p0 = true → t = .ACC_FRAG ∧
      ∀ k o, HeldAs (grun cf s h).storage k o .CON_INIT → o.payload.p0 ≠ pay.p0)
    (hkept : ∀ f ∈ (grun cf s h).storage.fragList t ⟨period, t, pay.p0⟩, GenuineFrag cf.crypto pub pay f)
    (sigs : List Sig2) (hn : sigs.Nodup) (hlen : cf.crypto.threshold ≤ (sigs.length : Int))
    (hdel : ∀ σ ∈ sigs, ∃ clk n d, (clk, .recv n d) ∈ h ∧ d.type = t ∧ d.period = period ∧ d.payload.p0 = pay.p0 ∧ d.sig = σ) :
    ∃ k o, HeldAs (grun cf s h).storage k o (fragTarget t) ∧ o.verify cf.crypto = .ok ∧ o.payload.p0 = pay.p0 ∧
      .owner o ∈ (grun cf s h).out := by
  have hsent := (hs.run cf h).fullsSent
  have concl : HasFull (grun cf s h) (fragTarget t) pay.p0 → ∃ k o, HeldAs (grun cf s h).storage k o (fragTarget t) ∧
      o.verify cf.crypto = .ok ∧ o.payload.p0 = pay.p0 ∧ .owner o ∈ (grun cf s h).out := by
    rintro ⟨k, o, ho, hx⟩
    obtain ⟨a, _, _, d⟩ := hsent _ k o (fragTarget_isFull ht) ho
    exact ⟨k, o, heldAs_iff.2 ho, a, hx, d⟩
  apply concl
  have black : (grun cf s h).blacklist.has pay.p0 = true → HasFull (grun cf s h) (fragTarget t) pay.p0 := by
    intro hb
    obtain ⟨rfl, hc⟩ := hbl hb
    rcases (cause_closed cf pay.p0).run cf hs h hw (by intro e; rw [hbl0] at e; cases e) hb with ⟨k, o, h1, h2⟩ | hf
    · exact absurd h2 (hc k o (.conInit h1))
    · exact hf
  have hinv : RoundInv cf pub pay t ⟨period, t, pay.p0⟩ (grun cf s h) := by
    refine (RoundInv.seqClosed J B hbls hp ht).run cf hs h hw ⟨hs.fullsSent, ?_⟩
    rw [hstart]
    intro h; simp at h; omega
  by_cases hb : (grun cf s h).blacklist.has pay.p0 = true
  · exact black hb
  have hlong : cf.crypto.threshold ≤ (((grun cf s h).storage.fragList t ⟨period, t, pay.p0⟩).length : Int) := by
    by_cases hl : cf.crypto.threshold ≤ (((grun cf s h).storage.fragList t ⟨period, t, pay.p0⟩).length : Int)
    · exact hl
    · have : sigs.length ≤ (((grun cf s h).storage.fragList t ⟨period, t, pay.p0⟩).map (·.sig)).length := by
        refine length_le_of_subset hn ?_
        intro σ hσ
        obtain ⟨clk, n, d, hd, h1, h2, h3, h4⟩ := hdel σ hσ
        have hA := Arrived.run hs h hw hcr d (by rw [h1]; exact ht) (by rw [h1]; exact hopt) ⟨clk, n, hd⟩
        have hid : d.getID = ⟨period, t, pay.p0⟩ := by simp [GossipObj.getID, h1, h2, h3]
        rw [h1, h3, h4, hid] at hA
        rcases hA with h | h | ⟨f, hf, e⟩
        · exact absurd h hb
        · exact absurd h hl
        · exact List.mem_map.2 ⟨f, hf, e⟩
      rw [List.length_map] at this
      omega
  rcases hinv.done hlong hkept with h | h
  · exact absurd h hb
  · exact h

/-- C27, what holds: after a round in which fragments by at least Threshold different registered gossipers over one
payload were handled one at a time, in any order and mixed with any other messages, timers and requests, the gossiper
holds a FULL object for the entity that verifies and was sent to the owner, provided the entity was not blacklisted on
other grounds, no fragment kept for the statement is forged, and REV_FRAG payloads are not rewritten by the
optimisation mode. Missing: fragments are not verified on receipt, so that one forged fragment spoils the round (see
`C27_violated_by_one_forged_fragment`). -/
theorem C27_honest_fragments_yield_full_partial (J : L.JsonLaws) (cf : GConf L) (pub : L.BlsSec → L.BlsPub)
    (B : L.BlsLaws pub) (hbls : cf.crypto.thresholdScheme = go!"bls") (hT : 1 ≤ cf.crypto.threshold)
    (s : GState) (hs : GReach cf s) (h : List (Clock × GOp)) (hw : ∀ e ∈ h, e.2 ≠ .periodic)
    (hcr : (grun cf s h).crashed = false) (t : GType) (ht : t.isFrag = true) (hopt : cf.optMode = false ∨ t ≠ .REV_FRAG)
    (period : Str) (pay : Pay3) (hp : pay.p0 ≠ []) (hstart : s.storage.fragList t ⟨period, t, pay.p0⟩ = [])
    (hbl0 : s.blacklist.has pay.p0 = false)
    (hbl : (grun cf s h).blacklist.has pay.p0 = true → t = .ACC_FRAG ∧
      ∀ k o, HeldAs (grun cf s h).storage k o .CON_INIT → o.payload.p0 ≠ pay.p0)
    (hkept : ∀ l, FragsAt (grun cf s h).storage ⟨period, t, pay.p0⟩ l t → ∀ f ∈ l, GenuineFrag cf.crypto pub pay f)
    (signers : List (CryptoConfig L)) (hn : (signers.map (·.selfID)).Nodup)
    (hlen : cf.crypto.threshold ≤ (signers.length : Int))
    (hreg : ∀ a ∈ signers, RegisteredSigner cf.crypto pub a ∧ Safe a.selfID)
    (hdel : ∀ a ∈ signers, ∃ clk n d, (clk, .recv n d) ∈ h ∧ d.type = t ∧ d.period = period ∧ d.payload = pay ∧
      (a.thresholdSign pay.cat).1.toStr = some d.sig.s0) :
    ∃ k o, HeldAs (grun cf s h).storage k o (fragTarget t) ∧ o.verify cf.crypto = .ok ∧ o.payload.p0 = pay.p0 ∧
      .owner o ∈ (grun cf s h).out := by
  classical
  have pick : ∀ ss : List (CryptoConfig L), (∀ a ∈ ss, a ∈ signers) → (ss.map (·.selfID)).Nodup → ∃ sigs : List Sig2,
      sigs.length = ss.length ∧ sigs.Nodup ∧
      (∀ σ ∈ sigs, ∃ a ∈ ss, (a.thresholdSign pay.cat).1.toStr = some σ.s0) ∧
      (∀ σ ∈ sigs, ∃ clk n d, (clk, .recv n d) ∈ h ∧ d.type = t ∧ d.period = period ∧ d.payload.p0 = pay.p0 ∧ d.sig = σ) := by
    intro ss
    induction ss with
    | nil => intro _ _; exact ⟨[], rfl, List.nodup_nil, by simp, by simp⟩
    | cons a ss ih =>
      intro hin hnd
      rw [List.map_cons, List.nodup_cons] at hnd
      obtain ⟨sigs, h1, h2, h3, h4⟩ := ih (fun b hb => hin b (by simp [hb])) hnd.2
      obtain ⟨clk, n, d, hd, e1, e2, e3, e4⟩ := hdel a (hin a (by simp))
      refine ⟨d.sig :: sigs, by simp [h1], ?_, ?_, ?_⟩
      · rw [List.nodup_cons]
        refine ⟨?_, h2⟩
        intro hm
        obtain ⟨b, hb, e5⟩ := h3 _ hm
        rw [← e4] at e5
        obtain ⟨ra, sa⟩ := hreg a (hin a (by simp))
        obtain ⟨rb, sb⟩ := hreg b (hin b (by simp [hb]))
        rw [thresholdSign_eq a ra.1, thresholdSign_eq b rb.1] at e5
        obtain ⟨x, hx1, hx2⟩ := C10_fragment_roundtrip J pub B (L.blsSign a.thresholdSecretKey pay.cat) a.selfID sa
        obtain ⟨y, hy1, hy2⟩ := C10_fragment_roundtrip J pub B (L.blsSign b.thresholdSecretKey pay.cat) b.selfID sb
        simp only at e5
        rw [hx1, hy1] at e5
        cases e5
        rw [hx2] at hy2
        have e6 : a.selfID = b.selfID := congrArg (fun p : SigFragment L × Bool => p.1.id) hy2
        exact hnd.1 (by rw [e6]; exact List.mem_map.2 ⟨b, hb, rfl⟩)
      · intro σ hσ
        rcases List.mem_cons.1 hσ with rfl | hσ
        · exact ⟨a, by simp, e4⟩
        · obtain ⟨b, hb, e⟩ := h3 σ hσ; exact ⟨b, by simp [hb], e⟩
      · intro σ hσ
        rcases List.mem_cons.1 hσ with rfl | hσ
        · exact ⟨clk, n, d, hd, e1, e2, by rw [e3], rfl⟩
        · exact h4 σ hσ
  obtain ⟨sigs, h1, h2, _, h4⟩ := pick signers (fun _ h => h) hn
  refine full_of_deliveries J cf pub B hbls hT s hs h hw hcr t ht hopt period pay hp hstart hbl0 hbl ?_ sigs h2
    (by rw [h1]; exact hlen) h4
  intro f hf
  cases hg : ((grun cf s h).storage.frags t).get ⟨period, t, pay.p0⟩ with
  | none => unfold Storage.fragList at hf; rw [hg] at hf; simp at hf
  | some l =>
    refine hkept l ?_ f (by unfold Storage.fragList at hf; rw [hg] at hf; exact hf)
    cases t <;> simp_all [GType.isFrag, Storage.frags]
    · exact .sth hg
    · exact .rev hg
    · exact .acc hg


/-- G2 and G3 sign the same STH; G1 holds the FULL object afterwards. -/
example : ∃ k o, HeldAs (grun Ref.gconf GState.init
      [(Ref.clk, .recv 10 (Ref.frag (go!"G3"))), (Ref.clk, .recv 10 Ref.sth), (Ref.clk, .recv 10 (Ref.frag (go!"G2")))]).storage
        k o .STH_FULL ∧ o.verify Ref.gconf.crypto = .ok ∧ o.payload.p0 = go!"L1" := by
  obtain ⟨k, o, h1, h2, h3, _⟩ := C27_honest_fragments_yield_full_partial Ref.jsonLaws Ref.gconf Ref.blsPub Ref.blsLaws rfl
    (by decide) GState.init (GReach.init _)
    [(Ref.clk, .recv 10 (Ref.frag (go!"G3"))), (Ref.clk, .recv 10 Ref.sth), (Ref.clk, .recv 10 (Ref.frag (go!"G2")))]
    (by simp) (by decide +kernel) .STH_FRAG rfl (.inl rfl) (go!"5") ⟨go!"L1", go!"rootA", go!"7"⟩ (by decide)
    (by decide +kernel) (by decide +kernel)
    (by
      intro hb
      have : (grun Ref.gconf GState.init
        [(Ref.clk, .recv 10 (Ref.frag (go!"G3"))), (Ref.clk, .recv 10 Ref.sth), (Ref.clk, .recv 10 (Ref.frag (go!"G2")))]).blacklist.has
          (go!"L1") = false := by decide +kernel
      rw [this] at hb; cases hb)
    (by
      intro l hl f hf
      have h := hl.fragList
      have h0 : (grun Ref.gconf GState.init
        [(Ref.clk, .recv 10 (Ref.frag (go!"G3"))), (Ref.clk, .recv 10 Ref.sth), (Ref.clk, .recv 10 (Ref.frag (go!"G2")))]).storage.fragList
          .STH_FRAG ⟨go!"5", .STH_FRAG, go!"L1"⟩ = [Ref.frag (go!"G3"), Ref.frag (go!"G2")] := by decide +kernel
      rw [h0] at h
      subst h
      simp only [List.mem_cons, List.not_mem_nil, or_false] at hf
      rcases hf with rfl | rfl
      · exact ⟨rfl, Ref.conf (go!"G3"), ⟨rfl, rfl⟩, by unfold Safe; decide, by decide +kernel⟩
      · exact ⟨rfl, Ref.conf (go!"G2"), ⟨rfl, rfl⟩, by unfold Safe; decide, by decide +kernel⟩)
    [Ref.conf (go!"G2"), Ref.conf (go!"G3")] (by decide) (by decide)
    (by
      intro a ha
      simp only [List.mem_cons, List.not_mem_nil, or_false] at ha
      rcases ha with rfl | rfl <;> exact ⟨⟨rfl, rfl⟩, by unfold Safe; decide⟩)
    (by
      intro a ha
      simp only [List.mem_cons, List.not_mem_nil, or_false] at ha
      rcases ha with rfl | rfl
      · exact ⟨Ref.clk, 10, Ref.frag (go!"G2"), by simp, rfl, rfl, rfl, by decide +kernel⟩
      · exact ⟨Ref.clk, 10, Ref.frag (go!"G3"), by simp, rfl, rfl, rfl, by decide +kernel⟩)
  exact ⟨k, o, h1, h2, h3⟩

/-- A fragment nobody signed: a signature of G3 on something else. -/
def Ref.forged : GossipObj := { Ref.frag (go!"G3") with sig := ⟨Ref.blsStr (go!"G3") (go!"else"), []⟩ }

/-- C27 fails in general: a forged fragment, delivered first and never checked, takes a place; the aggregate does not
verify, the fragments of G2 and G3 (threshold 2) arrive in vain, and the gossiper holds no FULL object. -/
theorem C27_violated_by_one_forged_fragment :
    let h := [(Ref.clk, GOp.recv 10 Ref.forged), (Ref.clk, .recv 10 (Ref.frag (go!"G2"))), (Ref.clk, .recv 10 (Ref.frag (go!"G3")))]
    Ref.gconf.crypto.threshold = 2 ∧ (grun Ref.gconf GState.init h).blacklist.has (go!"L1") = false ∧
    ∀ k o, ¬ HeldAs (grun Ref.gconf GState.init h).storage k o .STH_FULL := by
  refine ⟨rfl, by decide +kernel, ?_⟩
  intro k o h
  have h := heldAs_iff.1 h
  have e : (grun Ref.gconf GState.init [(Ref.clk, GOp.recv 10 Ref.forged), (Ref.clk, .recv 10 (Ref.frag (go!"G2"))),
    (Ref.clk, .recv 10 (Ref.frag (go!"G3")))]).storage.sthFull = .empty := by decide +kernel
  simp only [Storage.objs, e] at h
  simp at h

/-! ### C22 -/

/-- Induction over what handling a fragment does. -/
theorem handle_frag_ind {P : GState → Prop} (cf : GConf L) (clk : Clock) (s : GState) (g : GossipObj)
    (ht : g.type.isFrag = true) (hs : P s) (happ : P { s with storage := s.storage.appendFrag g.type g.getID g })
    (hfull : ∀ s o, P s → o.type = g.getTargetType → P (handle cf clk (s.emit [.generatedFull g.getID o]) o).1)
    (hsend : ∀ s, P s → P (sendToGossipers cf s g)) : P (handle cf clk s g).1 := by
  rw [CTng.handle_frag cf clk ht]
  split
  · exact hs
  · split
    · exact hs
    · unfold handleFrag
      split
      · exact hs
      · have h1 : P (readAndStore cf s g).1 := by
          rw [readAndStore_frag cf ht]
          split
          · exact happ
          · exact hs
        rcases hr : readAndStore cf s g with ⟨s1, before⟩
        rw [hr] at h1
        have h1 : P s1 := h1
        have fin : ∀ s', P s' → P (if (before : Int) < cf.crypto.threshold then (sendToGossipers cf s' g, false)
            else (s', false)).1 := by
          intro s' hs'
          split
          · exact hsend _ hs'
          · exact hs'
        simp only
        by_cases hc : (before : Int) = cf.crypto.threshold - 1
        · rw [if_pos hc]
          cases hg : generateFULL cf clk (getObjectList s1 g.getID g.type) g.getTargetType with
          | none => exact h1
          | some o =>
            simp only
            have h3 := hfull s1 o h1 (generateFULL_type hg)
            rcases hr2 : handle cf clk (s1.emit [.generatedFull g.getID o]) o with ⟨s2, b⟩
            rw [hr2] at h3
            cases b
            · exact fin s2 h3
            · exact h3
        · rw [if_neg hc]
          exact fin s1 h1

@[simp] theorem crashed_noteConverge (cf : GConf L) (clk : Clock) (s : GState) : (noteConverge cf clk s).crashed = s.crashed := by
  unfold noteConverge; split <;> rfl
@[simp] theorem crashed_storedState (cf : GConf L) (clk : Clock) (s : GState) (g : GossipObj) :
    (storedState cf clk s g).crashed = s.crashed := by
  unfold storedState storeNote noteInitConverge storeBlacklist addBlacklist
  split <;> (try split) <;> (try split) <;> (try split) <;> rfl

/-- Only fragments of one kind arrive at a fresh gossiper. -/
theorem collect (cf : GConf L) (clk : Clock) (ds l : List GossipObj) (hl : ∀ d ∈ l, d ∈ ds ∧ d.type = .STH_FRAG) (s : GState)
    (hs : s.crashed = false ∧ s.blacklist = .empty ∧ ∀ t k, ∀ f ∈ s.storage.fragList t k, f ∈ ds) :
    let s' := grun cf s (l.map fun d => (clk, .recv 0 d))
    s'.crashed = false ∧ s'.blacklist = .empty ∧ ∀ t k, ∀ f ∈ s'.storage.fragList t k, f ∈ ds := by
  induction l generalizing s with
  | nil => exact hs
  | cons d l ih =>
    refine ih (fun d h => hl d (by simp [h])) _ ?_
    obtain ⟨hd, ht⟩ := hl d (by simp)
    have e : gstep cf s (clk, .recv 0 d) = (handle cf clk { s with trafficReceived := s.trafficReceived + 0 } d).1 := by
      unfold gstep gossipObjectHandler
      rw [hs.1]
      simp [ht]
    rw [e]
    refine handle_frag_ind (P := fun s => s.crashed = false ∧ s.blacklist = .empty ∧ ∀ t k, ∀ f ∈ s.storage.fragList t k, f ∈ ds)
      cf clk _ d (by rw [ht]; rfl) hs ?_ ?_ ?_
    · refine ⟨hs.1, hs.2.1, ?_⟩
      intro t k f hf
      by_cases e : t = d.type ∧ k = d.getID
      · obtain ⟨rfl, rfl⟩ := e
        simp only [Storage.fragList_appendFrag_same _ _ _ _ (show d.type.isFrag = true by rw [ht]; rfl)] at hf
        rcases List.mem_append.1 hf with hf | hf
        · exact hs.2.2 _ _ f hf
        · simp at hf; subst hf; exact hd
      · have e' : t ≠ d.type ∨ k ≠ d.getID := by by_cases h1 : t = d.type <;> simp_all
        simp only [Storage.fragList_appendFrag_ne _ _ e'] at hf
        exact hs.2.2 _ _ f hf
    · intro s o hs ho
      have hot : o.type = .STH_FULL := by rw [ho]; simp [GossipObj.getTargetType, ht]
      rcases handle_full_cases cf clk (s.emit [.generatedFull d.getID o]) o (by rw [hot]; rfl) with h | h | ⟨_, h⟩ | ⟨_, _, _, h⟩
      · rw [h]; exact hs
      · rw [h]; refine ⟨by simp; exact hs.1, by simpa using hs.2.1, by simpa using hs.2.2⟩
      · rw [h]; refine ⟨by simp; exact hs.1, by simpa using hs.2.1, by simpa using hs.2.2⟩
      · rw [h]
        refine ⟨?_, ?_, by simpa using hs.2.2⟩
        · rw [crashed_noteConverge]; show (storedState cf clk _ o).crashed = false; rw [crashed_storedState]; exact hs.1
        · rw [blacklist_noteConverge, blacklist_sendToMonitor]
          unfold storedState; rw [blacklist_storeNote]; simp [storeBlacklist, hot, hs.2.1]
    · intro s hs
      exact ⟨by simpa using hs.1, by simpa using hs.2.1, by simpa using hs.2.2⟩

/-- C22 does not hold: whatever the threshold, one registered gossiper `a` can send its own fragment Threshold times with
a varying second signature string. A fresh gossiper that receives nothing else aggregates the copies into an STH_FULL that
verifies, holds it and passes it to its owner; no fragment it ever kept was made by anybody but `a`. -/
theorem C22_violated_one_signer_reaches_threshold (J : L.JsonLaws) (cf : GConf L) (pub : L.BlsSec → L.BlsPub)
    (B : L.BlsLaws pub) (hbls : cf.crypto.thresholdScheme = go!"bls") (hT : 1 ≤ cf.crypto.threshold) (clk : Clock)
    (a : CryptoConfig L) (ha : RegisteredSigner cf.crypto pub a) (hid : Safe a.selfID) (period : Str) (pay : Pay3)
    (hp : pay.p0 ≠ []) :
    ∃ ds : List GossipObj,
      (∀ d ∈ ds, d.type = .STH_FRAG ∧ d.period = period ∧ d.payload = pay ∧
        (a.thresholdSign pay.cat).1.toStr = some d.sig.s0) ∧
      (∀ t k l, FragsAt (grun cf GState.init (ds.map fun d => (clk, .recv 0 d))).storage k l t → ∀ f ∈ l, f ∈ ds) ∧
      ∃ k o, HeldAs (grun cf GState.init (ds.map fun d => (clk, .recv 0 d))).storage k o .STH_FULL ∧
        o.verify cf.crypto = .ok ∧ o.payload.p0 = pay.p0 ∧
        .owner o ∈ (grun cf GState.init (ds.map fun d => (clk, .recv 0 d))).out := by
  obtain ⟨str, hstr⟩ : ∃ str, (a.thresholdSign pay.cat).1.toStr = some str := by
    rw [thresholdSign_eq a ha.1]; exact ⟨_, rfl⟩
  let mk : Nat → GossipObj := fun i => { GossipObj.zero with
    type := .STH_FRAG, period := period, signer := a.selfID, payload := pay, sig := ⟨str, List.replicate i 0⟩ }
  let ds := (List.range cf.crypto.threshold.toNat).map mk
  have hds : ∀ d ∈ ds, d.type = .STH_FRAG ∧ d.period = period ∧ d.payload = pay ∧ d.sig.s0 = str := by
    intro d hd
    obtain ⟨i, _, rfl⟩ := List.mem_map.1 hd
    exact ⟨rfl, rfl, rfl, rfl⟩
  have hc := collect cf clk ds ds (fun d hd => ⟨hd, (hds d hd).1⟩) GState.init ⟨rfl, rfl, by simp [GState.init]⟩
  refine ⟨ds, ?_, ?_, ?_⟩
  · intro d hd
    obtain ⟨h1, h2, h3, h4⟩ := hds d hd
    exact ⟨h1, h2, h3, by rw [h4]; exact hstr⟩
  · intro t k l hl f hf
    exact hc.2.2 t k f (by rw [hl.fragList]; exact hf)
  · refine full_of_deliveries J cf pub B hbls hT GState.init (GReach.init cf) _ ?_ hc.1 .STH_FRAG rfl (.inr (by simp)) period pay hp
      (by simp [GState.init]) (by simp [GState.init]) ?_ ?_ (ds.map (·.sig)) ?_ ?_ ?_
    · intro e he
      obtain ⟨d, _, rfl⟩ := List.mem_map.1 he
      simp
    · intro h; rw [hc.2.1] at h; simp at h
    · intro f hf
      obtain ⟨_, _, h3, h4⟩ := hds f (hc.2.2 _ _ f hf)
      exact ⟨h3, a, ha, hid, by rw [h4]; exact hstr⟩
    · rw [List.map_map]
      refine List.Pairwise.map _ ?_ List.nodup_range
      intro i j hij e
      simp only [Function.comp, mk, Sig2.mk.injEq, true_and] at e
      exact hij (by simpa using congrArg List.length e)
    · simp only [ds, List.length_map, List.length_range]; omega
    · intro σ hσ
      obtain ⟨d, hd, rfl⟩ := List.mem_map.1 hσ
      obtain ⟨h1, h2, h3, _⟩ := hds d hd
      exact ⟨clk, 0, d, List.mem_map.2 ⟨d, hd, rfl⟩, h1, h2, by rw [h3], rfl⟩

/-- C22, what holds for a gossiper that handles one message at a time: kept fragments that are genuine and agree in the
second signature string were made by pairwise different gossipers. Missing: the second string is free, fragments are
not verified, and concurrent copies count twice (C21). -/
theorem C22_distinct_signers_partial (J : L.JsonLaws) (cf : GConf L) (pub : L.BlsSec → L.BlsPub) (B : L.BlsLaws pub)
    (s : GState) (hs : GReach cf s) (k : GossipID) (l : List GossipObj) (t : GType) (h : FragsAt s.storage k l t)
    (pay : Pay3) (hg : ∀ f ∈ l, GenuineFrag cf.crypto pub pay f) (σ1 : Str) (h1 : ∀ f ∈ l, f.sig.s1 = σ1) :
    (l.map fun f => (SigFragment.fromStr L f.sig.s0).1.id).Nodup := by
  have hp := C21_fragments_counted_once_partial cf s hs k l t h
  unfold List.Nodup
  rw [List.pairwise_map]
  refine List.Pairwise.imp_of_mem ?_ hp
  intro f f' hf hf' hne e
  apply hne
  obtain ⟨_, a, ra, sa, ea⟩ := hg f hf
  obtain ⟨_, b, rb, sb, eb⟩ := hg f' hf'
  rw [thresholdSign_eq a ra.1] at ea
  rw [thresholdSign_eq b rb.1] at eb
  obtain ⟨x, hx1, hx2⟩ := C10_fragment_roundtrip J pub B (L.blsSign a.thresholdSecretKey pay.cat) a.selfID sa
  obtain ⟨y, hy1, hy2⟩ := C10_fragment_roundtrip J pub B (L.blsSign b.thresholdSecretKey pay.cat) b.selfID sb
  simp only at ea eb
  rw [hx1] at ea
  rw [hy1] at eb
  cases ea; cases eb
  rw [hx2, hy2] at e
  dsimp only at e
  have hk : pub a.thresholdSecretKey = pub b.thresholdSecretKey := by
    have h1 := ra.2
    rw [e, rb.2] at h1
    exact (Option.some.inj h1).symm
  have hsig : L.blsSign a.thresholdSecretKey pay.cat = L.blsSign b.thresholdSecretKey pay.cat :=
    B.unique _ _ _ (by rw [← hk]; exact B.complete _ _)
  rw [e, hsig, hy1] at hx1
  have hs0 := Option.some.inj hx1
  have hs1 := (h1 f hf).trans (h1 f' hf').symm
  cases hfs : f.sig; cases hfs' : f'.sig
  rw [hfs, hfs'] at hs0 hs1
  simp only at hs0 hs1
  rw [← hs0, hs1]

example : ∃ s, GReach Ref.gconf s ∧ FragsAt s.storage (Ref.frag (go!"G2")).getID
    [Ref.frag (go!"G2"), Ref.frag (go!"G3")] .STH_FRAG ∧
    ∀ f ∈ [Ref.frag (go!"G2"), Ref.frag (go!"G3")],
      GenuineFrag Ref.gconf.crypto Ref.blsPub ⟨go!"L1", go!"rootA", go!"7"⟩ f ∧ f.sig.s1 = [] := by
  refine ⟨grun Ref.gconf GState.init [(Ref.clk, .recv 10 (Ref.frag (go!"G2"))), (Ref.clk, .recv 10 (Ref.frag (go!"G3")))],
    ⟨_, rfl⟩, .sth (by decide +kernel), ?_⟩
  intro f hf
  simp only [List.mem_cons, List.not_mem_nil, or_false] at hf
  rcases hf with rfl | rfl
  · exact ⟨⟨rfl, Ref.conf (go!"G2"), ⟨rfl, rfl⟩, by unfold Safe; decide, by decide +kernel⟩, rfl⟩
  · exact ⟨⟨rfl, Ref.conf (go!"G3"), ⟨rfl, rfl⟩, by unfold Safe; decide, by decide +kernel⟩, rfl⟩

end CTng
