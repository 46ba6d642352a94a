import Verif.Proofs.NetworkConcCause
import Verif.Props.NetworkThreshold
/- C91, C92 (concurrent networks), C100: threshold signing across a network of gossipers with goroutines. -/
set_option autoImplicit false

namespace CTng
variable {L : Lib}

/-! ### Specification -/

/-- The beginning of the round of a statement: no running gossiper holds, waits for, has saved or is working on anything about
its entity, and none is in the middle of wiping. Messages may still be under way, none of which is an obstacle to the round. -/
structure CRoundStart (N : NetConf L) (pub : L.BlsSec → L.BlsPub) (R : Round) (s : Net) : Prop where
  reach : NReach N s
  objs : ∀ x ∈ N.ids, s.up x → ∀ k o t, HeldAs (s.node x).g.storage k o t → o.payload.p0 ≠ R.pay.p0
  frags : ∀ x ∈ N.ids, s.up x → ∀ k l t, FragsAt (s.node x).g.storage k l t → ∀ f ∈ l, f.payload.p0 ≠ R.pay.p0
  payloads : ∀ x ∈ N.ids, s.up x → ∀ k o, (s.node x).g.storage.revPayload.get k = some o → o.payload.p0 ≠ R.pay.p0
  timers : ∀ x ∈ N.ids, s.up x → ∀ g ∈ (s.node x).g.timers, g.payload.p0 ≠ R.pay.p0
  idle : ∀ x ∈ N.ids, s.up x → ∀ t ∈ (s.node x).threads, ∀ f ∈ t.frames,
    f ≠ .wipe ∧ ∀ g, f.object = some g → g.payload.p0 ≠ R.pay.p0
  flight : ∀ m ∈ s.flight, m.dst ∈ N.ids → ∀ q, m.body = .obj q → MsgOK (N.conf m.dst).crypto pub R q

/-- The end of the round: nothing is under way, no goroutine has work left, and the timers about the entity have run. -/
structure CRoundEnd (N : NetConf L) (R : Round) (s : Net) : Prop where
  quiet : Quiet N s
  timers : ∀ x ∈ N.ids, s.up x → ∀ g ∈ (s.node x).g.timers, g.payload.p0 ≠ R.pay.p0

/-- No running gossiper keeps two fragments of the round with the same signature. -/
def DistinctFrags (N : NetConf L) (R : Round) (s : Net) : Prop :=
  ∀ x ∈ N.ids, s.up x → ∀ l, FragsAt (s.node x).g.storage ⟨R.period, R.kind.frag, R.pay.p0⟩ l R.kind.frag → (l.map (·.sig)).Nodup

/-! ### Lemmas -/

section
variable {N : NetConf L} {pub : L.BlsSec → L.BlsPub} {R : Round} {s : Net}

theorem CRoundStart.empty (h : CRoundStart N pub R s) {x : Str} (hx : x ∈ N.ids) (hu : s.up x) :
    (s.node x).g.storage.fragList R.kind.frag R.key = [] := by
  cases hl : (s.node x).g.storage.fragList R.kind.frag R.key with
  | nil => rfl
  | cons f r =>
    have hf : f ∈ (s.node x).g.storage.fragList R.kind.frag R.key := by rw [hl]; simp
    obtain ⟨l, h1, h2⟩ := fragsAt_of_mem hf
    have := ((h.reach.node x).sound.storage.frags _ _ f hf).1
    exact absurd (congrArg GossipID.entity this) (h.frags x hx hu _ l _ h1 f h2)

theorem CRoundStart.inv (hN : NetOK N pub R) (h : CRoundStart N pub R s) : CInv N pub R s := by
  refine ⟨h.reach.node, ?_, h.flight, ?_⟩
  · intro x hx hu
    have hempty := h.empty hx hu
    have hT := hN.mesh.threshold x hx
    refine ⟨⟨?_, ?_, ?_, ?_, ?_⟩, ?_, ?_, ?_, ?_, ?_, ?_⟩
    · intro k o ho hp; exact absurd hp (h.objs x hx hu k o _ (heldAs_iff.2 ho))
    · intro g hg _ hp; exact absurd hp (h.timers x hx hu g hg)
    · intro k f hf hp
      obtain ⟨l, h1, h2⟩ := fragsAt_of_mem hf
      exact absurd hp (h.frags x hx hu _ l _ h1 f h2)
    · intro k o ho hp; exact absurd hp (h.objs x hx hu k o _ (heldAs_iff.2 ho))
    · intro _ k o ho hp; exact absurd hp (h.payloads x hx hu k o ho)
    · rintro f ⟨t, ht, hf⟩
      have hm : ∀ g, f.object = some g → MsgOK (N.conf x).crypto pub R g := by
        intro g hg
        have := (h.idle x hx hu t ht f hf).2 g hg
        exact ⟨fun _ _ hp => absurd hp this, fun _ hp => absurd hp this, fun _ _ hp => absurd hp this⟩
      have hi : ∀ g, f.object = some g → InitOK R g := fun g hg hp => absurd hp ((h.idle x hx hu t ht f hf).2 g hg)
      cases f <;> first | exact hm _ rfl | exact ⟨hm _ rfl, fun _ => hi _ rfl⟩ | exact fun _ => hi _ rfl | trivial
    · intro g ⟨t, ht, hf⟩ _ hid
      exact absurd (congrArg GossipID.entity hid) ((h.idle x hx hu t ht _ hf).2 g rfl)
    · rintro ⟨t, ht, hf⟩; exact (h.idle x hx hu t ht _ hf).1 rfl
    · intro hl; rw [hempty] at hl; simp at hl; omega
    · intro hh
      obtain ⟨o, ho⟩ := (GoMap.has_iff _ _).1 hh
      have := ((h.reach.node x).sound.storage.objs _ _ o ho).1
      exact absurd (congrArg GossipID.entity this) (h.objs x hx hu _ o _ (heldAs_iff.2 ho))
    · intro k o ho hp; exact absurd hp (h.objs x hx hu k o _ (heldAs_iff.2 ho))
  · intro x hx y _ _ hu _ f hf
    rw [h.empty hx hu] at hf; cases hf

theorem not_under {cf : GConf L} {c : CState} (h : ∀ t ∈ c.threads, t.frames = []) (f : Frame) : ¬ Under cf R c f := by
  intro hu
  obtain ⟨t, ht, hf⟩ := hu.has
  rw [h t ht] at hf; cases hf

theorem distinct_list (h : DistinctFrags N R s) {x : Str} (hx : x ∈ N.ids) (hu : s.up x) :
    (((s.node x).g.storage.fragList R.kind.frag R.key).map (·.sig)).Nodup := by
  cases hl : (s.node x).g.storage.fragList R.kind.frag R.key with
  | nil => simp
  | cons f r =>
    have hf : f ∈ (s.node x).g.storage.fragList R.kind.frag R.key := by rw [hl]; simp
    obtain ⟨l, h1, h2⟩ := fragsAt_of_mem hf
    rw [← hl, h1.fragList]
    exact h x hx hu l h1

/-- Once nothing is under way. -/
theorem CInv.arrived (hI : CInv N pub R s) (hq : Quiet N s) {x y : Str} (hx : x ∈ N.ids) (hy : y ∈ N.ids) (hux : s.up x)
    (huy : s.up y) {f : GossipObj} (hf : f ∈ (s.node x).g.storage.fragList R.kind.frag R.key) :
    Arrived (N.conf y) R.pay.p0 R.kind.frag R.key f.sig (s.node y).g := by
  by_cases hxy : x = y
  · subst hxy; exact .inr (.inr ⟨f, hf, rfl⟩)
  · rcases hI.flood x hx y hy hxy hux huy f hf with (h | ⟨g, _, h⟩) | h | h
    · exact h
    · exact absurd h (not_under (hq.idle y hy huy) _)
    · exact absurd hy (hq.flight _ h)
    · exact absurd h (not_under (hq.idle x hx hux) _)

theorem CInv.hasFull (hI : CInv N pub R s) (hq : Quiet N s) {y : Str} (hy : y ∈ N.ids) (huy : s.up y)
    (hl : (N.conf y).crypto.threshold ≤ (((s.node y).g.storage.fragList R.kind.frag R.key).length : Int)) :
    (s.node y).g.blacklist.has R.pay.p0 = true ∨ HasFull (s.node y).g R.kind.full R.pay.p0 := by
  rcases (hI.node y hy huy).full hl with h | h | ⟨f, _, h⟩
  · exact .inl h
  · exact .inr h
  · exact absurd h (not_under (hq.idle y hy huy) _)

theorem CInv.certified (hI : CInv N pub R s) (hq : Quiet N s) {y : Str} (hy : y ∈ N.ids) (huy : s.up y)
    (h : HasFull (s.node y).g R.kind.full R.pay.p0) :
    Certified (N.conf y) R (s.node y).g ∧ (R.kind = .acc → (s.node y).g.blacklist.has R.pay.p0 = true) := by
  obtain ⟨k, o, ho, hp⟩ := h
  have hn := hI.node y hy huy
  rcases hn.sent k o ho hp with h | ⟨hb, h | h | h⟩
  · exact absurd h (not_under (hq.idle y hy huy) _)
  · exact ⟨⟨k, o, heldAs_iff.2 ho, ((hI.reach y).sound.storage.objs _ _ _ ho).2.2, hn.ok.fulls k o ho hp, h⟩, hb⟩
  · exact absurd h (not_under (hq.idle y hy huy) _)
  · exact absurd h (not_under (hq.idle y hy huy) _)

/-- A gossiper that holds the statement has signed it, or has blacklisted the entity, or its timer is still running. -/
theorem CInv.signed (hI : CInv N pub R s) (hq : Quiet N s) {x : Str} (hx : x ∈ N.ids) (hux : s.up x)
    (hh : ((s.node x).g.storage.objs R.kind.init).has R.key0 = true) :
    (∃ g ∈ (s.node x).g.timers, g.getID = R.key0) ∨ (s.node x).g.blacklist.has R.pay.p0 = true ∨
    ∃ σ, OwnSig (N.conf x).crypto R σ ∧ Kept (N.conf x) R.kind.frag R.key σ (s.node x).g := by
  rcases (hI.node x hx hux).own hh with h | h | ⟨f, _, h⟩ | ⟨σ, hσ, h | ⟨f, _, h⟩⟩
  · exact .inr (.inl h)
  · exact .inl h
  · exact absurd h (not_under (hq.idle x hx hux) _)
  · rcases h with h | h
    · exact .inr (.inl h)
    · exact .inr (.inr ⟨σ, hσ, h⟩)
  · exact absurd h (not_under (hq.idle x hx hux) _)

/-- A full list of distinct fragments anywhere fills the list of every running gossiper that has not blacklisted the entity. -/
theorem CInv.spread (hI : CInv N pub R s) (hq : Quiet N s) (hd : DistinctFrags N R s) (T : Int)
    (hT : ∀ x ∈ N.ids, (N.conf x).crypto.threshold = T) {x y : Str} (hx : x ∈ N.ids) (hy : y ∈ N.ids) (hux : s.up x)
    (huy : s.up y) (hl : T ≤ (((s.node x).g.storage.fragList R.kind.frag R.key).length : Int))
    (hb : ¬ (s.node y).g.blacklist.has R.pay.p0 = true) : T ≤ (((s.node y).g.storage.fragList R.kind.frag R.key).length : Int) := by
  apply Classical.byContradiction
  intro hnf
  have := length_le_of_subset (distinct_list hd hx hux) (b := ((s.node y).g.storage.fragList R.kind.frag R.key).map (·.sig)) (by
    intro σ hσ
    obtain ⟨f, hf, rfl⟩ := List.mem_map.1 hσ
    rcases hI.arrived hq hx hy hux huy hf with h | h | ⟨f', hf', e⟩
    · exact absurd h hb
    · rw [hT y hy] at h; exact absurd h hnf
    · exact List.mem_map.2 ⟨f', hf', e⟩)
  simp only [List.length_map] at this
  omega

/-- As many own fragments as the threshold, kept by running gossipers, fill the list of every running gossiper that has not
blacklisted the entity. -/
theorem CInv.enough (hN : NetOK N pub R) (hI : CInv N pub R s) (hq : Quiet N s) (hd : DistinctFrags N R s) (T : Int)
    (hT : ∀ x ∈ N.ids, (N.conf x).crypto.threshold = T)
    (hid : ∀ x ∈ N.ids, ∀ y ∈ N.ids, (N.conf x).crypto.selfID = (N.conf y).crypto.selfID → x = y)
    (xs : List Str) (hn : xs.Nodup) (hsub : ∀ x ∈ xs, x ∈ N.ids ∧ s.up x) (hlen : T ≤ (xs.length : Int))
    (hown : ∀ x ∈ xs, ∃ σ, OwnSig (N.conf x).crypto R σ ∧ Kept (N.conf x) R.kind.frag R.key σ (s.node x).g)
    (y : Str) (hy : y ∈ N.ids) (huy : s.up y) (hb : ¬ (s.node y).g.blacklist.has R.pay.p0 = true) :
    T ≤ (((s.node y).g.storage.fragList R.kind.frag R.key).length : Int) := by
  classical
  apply Classical.byContradiction
  intro hnf
  have hex : ∀ x, ∃ σ, x ∈ xs → OwnSig (N.conf x).crypto R σ ∧ σ ∈ ((s.node y).g.storage.fragList R.kind.frag R.key).map (·.sig) := by
    intro x
    by_cases hx : x ∈ xs
    · obtain ⟨σ, h1, h2⟩ := hown x hx
      obtain ⟨hx1, hx2⟩ := hsub x hx
      refine ⟨σ, fun _ => ⟨h1, ?_⟩⟩
      rcases h2 with h | ⟨f, hf, e⟩
      · rw [hT x hx1] at h
        exact absurd (hI.spread hq hd T hT hx1 hy hx2 huy h hb) hnf
      · rw [← e]
        rcases hI.arrived hq hx1 hy hx2 huy hf with h | h | ⟨f', hf', e'⟩
        · exact absurd h hb
        · rw [hT y hy] at h; exact absurd h hnf
        · exact List.mem_map.2 ⟨f', hf', e'⟩
    · exact ⟨⟨[], []⟩, fun h => absurd h hx⟩
  obtain ⟨sg, hsg⟩ : ∃ sg : Str → Sig2, ∀ x ∈ xs, OwnSig (N.conf x).crypto R (sg x) ∧
      sg x ∈ ((s.node y).g.storage.fragList R.kind.frag R.key).map (·.sig) :=
    ⟨fun x => Classical.choose (hex x), fun x hx => Classical.choose_spec (hex x) hx⟩
  have hnd : (xs.map sg).Nodup := by
    have hinj : ∀ a ∈ xs, ∀ b ∈ xs, sg a = sg b → a = b := by
      intro a ha b hb' e
      have ha' := hN.signer a (hsub a ha).1
      have hb'' := hN.signer b (hsub b hb').1
      exact hid a (hsub a ha).1 b (hsub b hb').1
        (ownSig_inj hN.json hN.bls (hsg a ha).1 (hsg b hb').1 ha'.bls hb''.bls ha'.safe hb''.safe e)
    clear hlen hown hsg hsub hex
    induction xs with
    | nil => simp
    | cons a l ih =>
      rw [List.nodup_cons] at hn
      rw [List.map_cons, List.nodup_cons]
      refine ⟨?_, ih hn.2 (fun c hc d hd => hinj c (by simp [hc]) d (by simp [hd]))⟩
      intro hm
      obtain ⟨b, hb', e⟩ := List.mem_map.1 hm
      have := hinj b (by simp [hb']) a (by simp) e
      exact hn.1 (this ▸ hb')
  have := length_le_of_subset hnd (b := ((s.node y).g.storage.fragList R.kind.frag R.key).map (·.sig)) (by
    intro σ hσ
    obtain ⟨x, hx, rfl⟩ := List.mem_map.1 hσ
    exact (hsg x hx).2)
  simp only [List.length_map] at this
  omega

theorem CRoundStart.netInv (h : CRoundStart N pub R s) (hk : R.kind ≠ .acc) : NetInv N R.key0 s := by
  have hnot : ∀ x ∈ N.ids, s.up x → ¬ HeldKey (s.node x) R.key0 := by
    intro x hx hu hh
    obtain ⟨o, ho⟩ := heldKey_get.1 hh
    have := ((h.reach.node x).sound.storage.objs _ _ o ho).1
    exact absurd (congrArg GossipID.entity this) (h.objs x hx hu _ o _ (heldAs_iff.2 ho))
  have hc : R.key0.type ≠ .CON_INIT := by simp only [Round.key0]; cases R.kind <;> simp [Kind.init]
  refine ⟨h.reach.node, fun x hx hu => ⟨fun h' => absurd h' hc, ?_, .inr ?_⟩, fun x hx y hy _ hu _ hh => absurd hh (hnot x hx hu)⟩
  · rintro _ g ⟨t, ht, hf⟩ hid _ _
    exact absurd (congrArg GossipID.entity hid) ((h.idle x hx hu t ht _ hf).2 g rfl)
  · rintro ⟨t, ht, hf⟩; exact (h.idle x hx hu t ht _ hf).1 rfl

theorem conc_flood (hN : NetOK N pub R) (hk : R.kind ≠ .acc) (hs : CRoundStart N pub R s) (es : List NEvent)
    (hw : ∀ e ∈ es, e.noWipe = true) (hq : Quiet N (nrun N s es)) {x y : Str} (hx : x ∈ N.ids) (hy : y ∈ N.ids)
    (hux : (nrun N s es).up x) (huy : (nrun N s es).up y) (hb : ((nrun N s es).node y).g.blacklist.has R.pay.p0 = false)
    (hh : (((nrun N s es).node x).g.storage.objs R.kind.init).has R.key0 = true) :
    (((nrun N s es).node y).g.storage.objs R.kind.init).has R.key0 = true := by
  have hfk : FloodKey N R.key0 := by
    cases hkk : R.kind with
    | acc => exact absurd hkk hk
    | sth => exact .inr (.inl (by simp [Round.key0, hkk, Kind.init]))
    | rev => exact .inr (.inr ⟨by simp [Round.key0, hkk, Kind.init], fun z hz o => ((hN.signer z hz).unopt hkk).2 o⟩)
  have hI := nrun_inv hN.mesh hfk (hs.netInv hk) es (.inr hw)
  rcases settled_of_quiet hI hq hx hy hux huy hh with h | ⟨_, h⟩
  · have h' : ((nrun N s es).node y).g.blacklist.has R.pay.p0 = true := h
    rw [hb] at h'; cases h'
  · exact h
end

/-! ### C100 -/

/-- C100. In a fully connected network of gossipers with the same keys, with all goroutines interleaved in any way, during a round
in which nothing stands against the statement: once nothing is under way, every fragment of the round that a running gossiper keeps
is kept, with the same signature, by every running gossiper that has fewer than Threshold fragments and has not blacklisted the
entity. -/
theorem C100_fragments_flood {N : NetConf L} {pub : L.BlsSec → L.BlsPub} {R : Round} (hN : NetOK N pub R)
    (s : Net) (hs : CRoundStart N pub R s) (es : List NEvent) (hw : ∀ e ∈ es, e.noWipe = true) (he : ∀ e ∈ es, e.ok N pub R)
    (hq : Quiet N (nrun N s es)) (x y : Str) (hx : x ∈ N.ids) (hy : y ∈ N.ids) (hux : (nrun N s es).up x)
    (huy : (nrun N s es).up y) (l : List GossipObj) (f : GossipObj)
    (hl : FragsAt ((nrun N s es).node x).g.storage ⟨R.period, R.kind.frag, R.pay.p0⟩ l R.kind.frag) (hf : f ∈ l) :
    ((nrun N s es).node y).g.blacklist.has R.pay.p0 = true ∨
    ∃ l', FragsAt ((nrun N s es).node y).g.storage ⟨R.period, R.kind.frag, R.pay.p0⟩ l' R.kind.frag ∧
      ((N.conf y).crypto.threshold ≤ (l'.length : Int) ∨ ∃ f' ∈ l', f'.sig = f.sig) := by
  have hI := cinv_run hN (hs.inv hN) es hw he
  have hmem : f ∈ ((nrun N s es).node x).g.storage.fragList R.kind.frag R.key := by
    rw [show R.key = ⟨R.period, R.kind.frag, R.pay.p0⟩ from rfl, hl.fragList]; exact hf
  have hat : ∀ g, g ∈ ((nrun N s es).node y).g.storage.fragList R.kind.frag R.key →
      FragsAt ((nrun N s es).node y).g.storage ⟨R.period, R.kind.frag, R.pay.p0⟩
        (((nrun N s es).node y).g.storage.fragList R.kind.frag R.key) R.kind.frag := by
    intro g hg
    obtain ⟨l', h1, _⟩ := fragsAt_of_mem hg
    rw [h1.fragList]; exact h1
  rcases hI.arrived hq hx hy hux huy hmem with h | h | ⟨f', hf', e⟩
  · exact .inl h
  · right
    have hT := hN.mesh.threshold y hy
    cases hl' : ((nrun N s es).node y).g.storage.fragList R.kind.frag R.key with
    | nil => rw [hl'] at h; simp at h; omega
    | cons g r => exact ⟨_, hat g (by rw [hl']; simp), .inl h⟩
  · exact .inr ⟨_, hat f' hf', .inr ⟨f', hf', e⟩⟩

/-- C100. At the end of such a round every running gossiper that has kept Threshold fragments holds a FULL object with the payload
of the round, which verifies and was sent to its owner, or it has blacklisted the entity. -/
theorem C100_full_lists_are_certified {N : NetConf L} {pub : L.BlsSec → L.BlsPub} {R : Round} (hN : NetOK N pub R)
    (s : Net) (hs : CRoundStart N pub R s) (es : List NEvent) (hw : ∀ e ∈ es, e.noWipe = true) (he : ∀ e ∈ es, e.ok N pub R)
    (hq : Quiet N (nrun N s es)) (y : Str) (hy : y ∈ N.ids) (huy : (nrun N s es).up y) (l : List GossipObj)
    (hl : FragsAt ((nrun N s es).node y).g.storage ⟨R.period, R.kind.frag, R.pay.p0⟩ l R.kind.frag)
    (hlen : (N.conf y).crypto.threshold ≤ (l.length : Int)) :
    ((nrun N s es).node y).g.blacklist.has R.pay.p0 = true ∨ Certified (N.conf y) R ((nrun N s es).node y).g := by
  have hI := cinv_run hN (hs.inv hN) es hw he
  have e : ((nrun N s es).node y).g.storage.fragList R.kind.frag R.key = l := hl.fragList
  rcases hI.hasFull hq hy huy (by rw [e]; exact hlen) with h | h
  · exact .inl h
  · exact .inr (hI.certified hq hy huy h).1

/-! ### C91, C92 -/

/-- C91 for concurrent gossipers, what holds: with all goroutines, timers, messages and posts from outside interleaved in any way,
in a round in which nothing stands against the statement and at whose end nothing is under way, the timers have run, nobody
running has blacklisted the entity and at least T gossipers are running: if no running gossiper has counted a fragment twice, and
one running gossiper holds the STH or revocation update, then every running gossiper holds a FULL object with its payload, which
verifies and was sent to the gossiper's owner. Missing: runs in which a fragment is counted twice, for which the claim fails
(`C91_violated_by_concurrent_duplicates`); revocations in the optimised
mode, where it fails even so (`C91_violated_by_default_optimisation`). -/
theorem C91_distinct_fragments_partial {N : NetConf L} {pub : L.BlsSec → L.BlsPub} {R : Round} (hN : NetOK N pub R)
    (hk : R.kind = .sth ∨ R.kind = .rev) (T : Int) (hT : ∀ x ∈ N.ids, (N.conf x).crypto.threshold = T)
    (hid : ∀ x ∈ N.ids, ∀ y ∈ N.ids, (N.conf x).crypto.selfID = (N.conf y).crypto.selfID → x = y)
    (s : Net) (hs : CRoundStart N pub R s) (es : List NEvent) (hw : ∀ e ∈ es, e.noWipe = true) (he : ∀ e ∈ es, e.ok N pub R)
    (hend : CRoundEnd N R (nrun N s es)) (hd : DistinctFrags N R (nrun N s es))
    (hb : ∀ x ∈ N.ids, (nrun N s es).up x → ((nrun N s es).node x).g.blacklist.has R.pay.p0 = false)
    (xs : List Str) (hn : xs.Nodup) (hxs : ∀ x ∈ xs, x ∈ N.ids ∧ (nrun N s es).up x) (hlen : T ≤ (xs.length : Int))
    (z : Str) (hz : z ∈ N.ids) (huz : (nrun N s es).up z) (o : GossipObj)
    (ho : HeldAs ((nrun N s es).node z).g.storage ⟨R.period, R.kind.init, R.pay.p0⟩ o R.kind.init)
    (y : Str) (hy : y ∈ N.ids) (huy : (nrun N s es).up y) : Certified (N.conf y) R ((nrun N s es).node y).g := by
  have hI := cinv_run hN (hs.inv hN) es hw he
  have hq := hend.quiet
  have hk' : R.kind ≠ .acc := by rintro h; rcases hk with h' | h' <;> rw [h] at h' <;> cases h'
  have hhz : (((nrun N s es).node z).g.storage.objs R.kind.init).has R.key0 = true := (GoMap.has_iff _ _).2 ⟨o, heldAs_iff.1 ho⟩
  have hnb : ∀ x ∈ N.ids, (nrun N s es).up x → ¬ ((nrun N s es).node x).g.blacklist.has R.pay.p0 = true := by
    intro x hx hu h; rw [hb x hx hu] at h; cases h
  have hown : ∀ x ∈ xs, ∃ σ, OwnSig (N.conf x).crypto R σ ∧ Kept (N.conf x) R.kind.frag R.key σ ((nrun N s es).node x).g := by
    intro x hx
    obtain ⟨hx1, hx2⟩ := hxs x hx
    have hh := conc_flood hN hk' hs es hw hq hz hx1 huz hx2 (hb x hx1 hx2) hhz
    rcases hI.signed hq hx1 hx2 hh with ⟨g, hg, e⟩ | h | h
    · exact absurd (congrArg GossipID.entity e) (hend.timers x hx1 hx2 g hg)
    · exact absurd h (hnb x hx1 hx2)
    · exact h
  have hfull := hI.enough hN hq hd T hT hid xs hn hxs hlen hown y hy huy (hnb y hy huy)
  rcases hI.hasFull hq hy huy (by rw [hT y hy]; exact hfull) with h | h
  · exact absurd h (hnb y hy huy)
  · exact (hI.certified hq hy huy h).1

theorem CReach.timersOK {cf : GConf L} {c : CState} (h : CReach cf c) : ∀ g ∈ c.g.timers, g.type = .STH_INIT ∨ g.type = .REV_INIT := by
  obtain ⟨es, _, hm, _⟩ := h.main
  exact fun g hg => (hm.timers g hg).1

/-- If at least T running gossipers hold the accusation or have blacklisted the entity, everybody running has blacklisted it. -/
theorem acc_spreads {N : NetConf L} {pub : L.BlsSec → L.BlsPub} {R : Round} (hN : NetOK N pub R)
    (hk : R.kind = .acc) (T : Int) (hT : ∀ x ∈ N.ids, (N.conf x).crypto.threshold = T)
    (hid : ∀ x ∈ N.ids, ∀ y ∈ N.ids, (N.conf x).crypto.selfID = (N.conf y).crypto.selfID → x = y)
    (s : Net) (hs : CRoundStart N pub R s)
    (hs0 : ∀ x ∈ N.ids, s.up x → (s.node x).g.blacklist.has R.pay.p0 = false)
    (hs1 : ∀ m ∈ s.flight, m.dst ∈ N.ids → ∀ q, m.body = .obj q → q.type = .ACC_FULL → q.payload.p0 ≠ R.pay.p0)
    (es : List NEvent) (hw : ∀ e ∈ es, e.noWipe = true) (he : ∀ e ∈ es, e.ok N pub R) (hf : ∀ e ∈ es, e.noFull R)
    (hq : Quiet N (nrun N s es)) (hd : DistinctFrags N R (nrun N s es))
    (xs : List Str) (hn : xs.Nodup) (hlen : T ≤ (xs.length : Int))
    (hxs : ∀ x ∈ xs, x ∈ N.ids ∧ (nrun N s es).up x ∧
      (((nrun N s es).node x).g.blacklist.has R.pay.p0 = true ∨ (((nrun N s es).node x).g.storage.objs .ACC_INIT).has R.key0 = true))
    (y : Str) (hy : y ∈ N.ids) (huy : (nrun N s es).up y) : ((nrun N s es).node y).g.blacklist.has R.pay.p0 = true := by
  have hI := cinv_run hN (hs.inv hN) es hw he
  have hreach : NReach N (nrun N s es) := by
    obtain ⟨h0, e0⟩ := hs.reach
    exact ⟨h0 ++ es, by rw [e0]; simp [nrun, List.foldl_append]⟩
  have hC0 : NCause N R s := by
    refine ⟨?_, hs1⟩
    intro x hx hu
    refine ⟨?_, ?_, ?_⟩
    · intro h; rw [hs0 x hx hu] at h; cases h
    · rintro f g ⟨t, ht, hf⟩ ho _ hp; exact absurd hp ((hs.idle x hx hu t ht f hf).2 g ho)
    · rintro g ⟨t, ht, hf⟩ _ hp; exact absurd hp ((hs.idle x hx hu t ht _ hf).2 g rfl)
  have hC := ncause_run hk hN (hs.inv hN) hC0 es hw he hf
  -- a full list anywhere is enough
  have hfin : ∀ l, T ≤ l → (((nrun N s es).node y).g.storage.fragList R.kind.frag R.key).length = l →
      ((nrun N s es).node y).g.blacklist.has R.pay.p0 = true := by
    intro l hl e
    rcases hI.hasFull hq hy huy (by rw [hT y hy, e]; exact hl) with h | h
    · exact h
    · exact (hI.certified hq hy huy h).2 hk
  apply Classical.byContradiction
  intro hby
  have hxb : ∀ x ∈ N.ids, (nrun N s es).up x → ¬ Cause (N.conf x) R ((nrun N s es).node x) := by
    intro x hx hu hc
    rcases hc with h | ⟨k, o, h1, h2⟩
    · rw [hT x hx] at h
      exact hby (hfin _ (hI.spread hq hd T hT hx hy hu huy h hby) rfl)
    · have := C37_conflict_proofs_reach_everyone N hN.mesh _ hreach hq x y hx hy hu huy k o h1
      rw [h2] at this
      exact hby this
  have hown : ∀ x ∈ xs, ∃ σ, OwnSig (N.conf x).crypto R σ ∧ Kept (N.conf x) R.kind.frag R.key σ ((nrun N s es).node x).g := by
    intro x hx
    obtain ⟨hx1, hx2, hbl | ho⟩ := hxs x hx
    · exact absurd ((hC.node x hx1 hx2).black hbl) (hxb x hx1 hx2)
    have hh : (((nrun N s es).node x).g.storage.objs R.kind.init).has R.key0 = true := by
      simp only [hk, Kind.init]
      exact ho
    rcases hI.signed hq hx1 hx2 hh with ⟨g, hg, e⟩ | h | h
    · have ht : g.type = .ACC_INIT := by
        have := congrArg GossipID.type e
        simpa [Round.key0, hk, Kind.init, GossipObj.getID] using this
      rcases (hI.reach x).timersOK g hg with h | h <;> rw [ht] at h <;> cases h
    · exact absurd ((hC.node x hx1 hx2).black h) (hxb x hx1 hx2)
    · exact h
  exact hby (hfin _ (hI.enough hN hq hd T hT hid xs hn (fun x hx => ⟨(hxs x hx).1, (hxs x hx).2.1⟩) hlen hown y hy huy hby) rfl)

/-- C92 for concurrent gossipers, what holds: under the same conditions on the network, in a round in which all accusations of an
entity carry the same payload, no fragment is forged and no full accusation of the entity is posted from outside, and which starts
with the entity blacklisted by nobody: once nothing is under way, if no running gossiper has counted a fragment twice and at least
T running gossipers hold the accusation, then every running gossiper has blacklisted the entity. Missing: runs in which a fragment is
counted twice, for which the claim fails (`C92_violated_by_concurrent_duplicates`). -/
theorem C92_distinct_fragments_partial {N : NetConf L} {pub : L.BlsSec → L.BlsPub} {R : Round} (hN : NetOK N pub R)
    (hk : R.kind = .acc) (T : Int) (hT : ∀ x ∈ N.ids, (N.conf x).crypto.threshold = T)
    (hid : ∀ x ∈ N.ids, ∀ y ∈ N.ids, (N.conf x).crypto.selfID = (N.conf y).crypto.selfID → x = y)
    (s : Net) (hs : CRoundStart N pub R s)
    (hs0 : ∀ x ∈ N.ids, s.up x → (s.node x).g.blacklist.has R.pay.p0 = false)
    (hs1 : ∀ m ∈ s.flight, m.dst ∈ N.ids → ∀ q, m.body = .obj q → q.type = .ACC_FULL → q.payload.p0 ≠ R.pay.p0)
    (es : List NEvent) (hw : ∀ e ∈ es, e.noWipe = true) (he : ∀ e ∈ es, e.ok N pub R) (hf : ∀ e ∈ es, e.noFull R)
    (hq : Quiet N (nrun N s es)) (hd : DistinctFrags N R (nrun N s es))
    (xs : List Str) (hn : xs.Nodup) (hlen : T ≤ (xs.length : Int))
    (hxs : ∀ x ∈ xs, x ∈ N.ids ∧ (nrun N s es).up x ∧
      ∃ o, HeldAs ((nrun N s es).node x).g.storage ⟨R.period, .ACC_INIT, R.pay.p0⟩ o .ACC_INIT)
    (y : Str) (hy : y ∈ N.ids) (huy : (nrun N s es).up y) : ((nrun N s es).node y).g.blacklist.has R.pay.p0 = true := by
  refine acc_spreads hN hk T hT hid s hs hs0 hs1 es hw he hf hq hd xs hn hlen (fun x hx => ?_) y hy huy
  obtain ⟨hx1, hx2, o, ho⟩ := hxs x hx
  refine ⟨hx1, hx2, .inr ((GoMap.has_iff _ _).2 ⟨o, ?_⟩)⟩
  simp only [Round.key0, hk, Kind.init]
  exact heldAs_iff.1 ho

/-! ### Sample networks -/

namespace Ref

theorem mesh_cstart (R : Round) : CRoundStart mesh blsPub R Net.init where
  reach := ⟨[], rfl⟩
  objs := by intro x _ _ k o t h; exact absurd (heldAs_iff.1 h) (by simp [Net.init, CState.init, GState.init])
  frags := by intro x _ _ k l t h; cases h with | sth h => cases h | rev h => cases h | acc h => cases h
  payloads := by intro x _ _ k o h; cases h
  timers := by intro x _ _ g h; cases h
  idle := by intro x _ _ t h; cases h
  flight := by intro m h; cases h

/-- L1's STH is posted to G1 and passed to G2. Both timers run at the same time, both goroutines sign step by step in turn, and
each handles the other's fragment. -/
def signConc : List NEvent :=
  floodHist ++ [.node (go!"G1") (clk, .fire 0), .node (go!"G2") (clk, .fire 0)] ++
  nruns (go!"G1") 2 4 ++ nruns (go!"G2") 1 4 ++ nruns (go!"G1") 2 12 ++ nruns (go!"G2") 1 12 ++
  [.deliver 0 clk, .deliver 0 clk] ++ nruns (go!"G1") 3 3 ++ nruns (go!"G2") 2 20 ++ nruns (go!"G1") 3 20 ++
  [.deliver 0 clk, .deliver 0 clk] ++ nruns (go!"G1") 4 20 ++ nruns (go!"G2") 3 20

/-- M1's accusation is posted to both gossipers at the same time. -/
def accConc : List NEvent :=
  [.node (go!"G1") (clk, .recv 10 accuse), .node (go!"G2") (clk, .recv 10 accuse)] ++
  nruns (go!"G1") 0 8 ++ nruns (go!"G2") 0 20 ++ nruns (go!"G1") 0 20 ++ [.deliver 0 clk, .deliver 0 clk] ++
  nruns (go!"G1") 1 3 ++ nruns (go!"G2") 1 20 ++ nruns (go!"G1") 1 20 ++
  [.deliver 0 clk, .deliver 0 clk] ++ nruns (go!"G1") 2 20 ++ nruns (go!"G2") 2 20

/-- Everything posted from outside satisfies a test. -/
def postedAll (p : GossipObj → Bool) (es : List NEvent) : Bool :=
  es.all fun e => match e with
    | .node _ (_, .recv _ o) => p o
    | _ => true

theorem posted_ok {N : NetConf lib} {pub : lib.BlsSec → lib.BlsPub} {R : Round} {es : List NEvent} {d : GossipObj}
    (h : postedAll (fun o => decide (o = d)) es = true) (hd : ∀ x, MsgOK (N.conf x).crypto pub R d) : ∀ e ∈ es, e.ok N pub R := by
  intro e he
  cases e with
  | deliver i clk => trivial
  | node x e =>
    obtain ⟨clk, ev⟩ := e
    intro n o hev
    simp only at hev
    subst hev
    have := of_decide_eq_true (List.all_eq_true.1 h _ he)
    rw [this]; exact hd x

theorem distinct_of_check {N : NetConf lib} {R : Round} {s : Net}
    (h : (N.ids.all fun x => decide (((s.node x).g.storage.fragList R.kind.frag R.key).map (·.sig)).Nodup) = true) : DistinctFrags N R s := by
  intro x hx _ l hl
  have := of_decide_eq_true (List.all_eq_true.1 h x hx)
  rw [show R.key = ⟨R.period, R.kind.frag, R.pay.p0⟩ from rfl, hl.fragList] at this
  exact this

theorem signConc_ok : ∀ e ∈ signConc, e.ok mesh blsPub sthRound :=
  posted_ok (d := sth) (by decide +kernel) (fun _ => ⟨fun _ _ _ => ⟨rfl, rfl⟩, fun h => (by cases h), fun h => (by cases h)⟩)

theorem accConc_ok : ∀ e ∈ accConc, e.ok mesh blsPub accRound :=
  posted_ok (d := accuse) (by decide +kernel) (fun _ => ⟨fun _ _ _ => ⟨rfl, rfl⟩, fun h => (by cases h), fun h => (by cases h)⟩)

theorem signConc_up : ∀ x ∈ mesh.ids, (nrun mesh Net.init signConc).up x := by
  have h : (mesh.ids.all fun x => !((nrun mesh Net.init signConc).node x).g.crashed) = true := by decide +kernel
  intro x hx
  have := List.all_eq_true.1 h x hx
  simp only [Bool.not_eq_true'] at this
  exact this

theorem accConc_up : ∀ x ∈ mesh.ids, (nrun mesh Net.init accConc).up x := by
  have h : (mesh.ids.all fun x => !((nrun mesh Net.init accConc).node x).g.crashed) = true := by decide +kernel
  intro x hx
  have := List.all_eq_true.1 h x hx
  simp only [Bool.not_eq_true'] at this
  exact this

/-- Both gossipers hold the STH with two signatures. -/
example : ∀ y ∈ [go!"G1", go!"G2"], Certified (mesh.conf y) sthRound ((nrun mesh Net.init signConc).node y).g := by
  have ht : (mesh.ids.all fun x => ((nrun mesh Net.init signConc).node x).g.timers.isEmpty) = true := by decide +kernel
  have hb : (mesh.ids.all fun x => !((nrun mesh Net.init signConc).node x).g.blacklist.has (go!"L1")) = true := by decide +kernel
  intro y hy
  refine C91_distinct_fragments_partial (mesh_net sthRound (by decide)) (.inl rfl) 2 (fun _ _ => rfl) mesh_ids Net.init
    (mesh_cstart _) signConc (by decide +kernel) signConc_ok ⟨quiet_of_check (by decide +kernel), ?_⟩ (distinct_of_check (by decide +kernel)) ?_
    [go!"G1", go!"G2"] (by decide) (fun x hx => ⟨hx, signConc_up x hx⟩) (by decide)
    (go!"G1") (by decide) (signConc_up _ (by decide)) sth (.sthInit (by decide +kernel)) y hy (signConc_up y hy)
  · intro x hx _ g hg
    have := List.all_eq_true.1 ht x hx
    rw [List.isEmpty_iff] at this
    rw [this] at hg; cases hg
  · intro x hx _
    have := List.all_eq_true.1 hb x hx
    simp only [Bool.not_eq_true'] at this
    exact this

/-- G1's list of two fragments has flooded to G2. -/
example : ∀ l f, FragsAt ((nrun mesh Net.init signConc).node (go!"G1")).g.storage ⟨go!"5", .STH_FRAG, go!"L1"⟩ l .STH_FRAG → f ∈ l →
    ((nrun mesh Net.init signConc).node (go!"G2")).g.blacklist.has (go!"L1") = true ∨
    ∃ l', FragsAt ((nrun mesh Net.init signConc).node (go!"G2")).g.storage ⟨go!"5", .STH_FRAG, go!"L1"⟩ l' .STH_FRAG ∧
      (2 ≤ (l'.length : Int) ∨ ∃ f' ∈ l', f'.sig = f.sig) :=
  fun l f hl hf => C100_fragments_flood (mesh_net sthRound (by decide)) Net.init (mesh_cstart _) signConc (by decide +kernel) signConc_ok
    (quiet_of_check (by decide +kernel)) (go!"G1") (go!"G2") (by decide) (by decide) (signConc_up _ (by decide)) (signConc_up _ (by decide)) l f hl hf

/-- Such a list exists, and G1's is full. -/
example : ((nrun mesh Net.init signConc).node (go!"G1")).g.blacklist.has (go!"L1") = true ∨
    Certified (mesh.conf (go!"G1")) sthRound ((nrun mesh Net.init signConc).node (go!"G1")).g := by
  have hlen : (((nrun mesh Net.init signConc).node (go!"G1")).g.storage.fragList .STH_FRAG ⟨go!"5", .STH_FRAG, go!"L1"⟩).length = 2 := by
    decide +kernel
  obtain ⟨f, hf⟩ := List.exists_mem_of_length_pos (l := ((nrun mesh Net.init signConc).node (go!"G1")).g.storage.fragList .STH_FRAG ⟨go!"5", .STH_FRAG, go!"L1"⟩)
    (by rw [hlen]; decide)
  obtain ⟨l, hl, _⟩ := fragsAt_of_mem hf
  rw [hl.fragList] at hlen
  exact C100_full_lists_are_certified (mesh_net sthRound (by decide)) Net.init (mesh_cstart _) signConc (by decide +kernel) signConc_ok
    (quiet_of_check (by decide +kernel)) (go!"G1") (by decide) (signConc_up _ (by decide)) l hl (by rw [hlen]; decide)

/-- Both gossipers blacklist L1. -/
example : ∀ y ∈ [go!"G1", go!"G2"], ((nrun mesh Net.init accConc).node y).g.blacklist.has (go!"L1") = true := by
  have hh : (mesh.ids.all fun x => decide (((nrun mesh Net.init accConc).node x).g.storage.accInit.get ⟨go!"5", .ACC_INIT, go!"L1"⟩ = some accuse)) = true := by
    decide +kernel
  have hnf : ∀ e ∈ accConc, e.noFull accRound := by
    have h : postedAll (fun o => decide (o = accuse)) accConc = true := by decide +kernel
    intro e he
    cases e with
    | deliver i clk => trivial
    | node x e =>
      obtain ⟨clk, ev⟩ := e
      intro n o hev
      simp only at hev
      subst hev
      have := of_decide_eq_true (List.all_eq_true.1 h _ he)
      rw [this]; intro h'; cases h'
  intro y hy
  exact C92_distinct_fragments_partial (mesh_net accRound (by decide)) rfl 2 (fun _ _ => rfl) mesh_ids Net.init
    (mesh_cstart _) (fun _ _ _ => rfl) (fun m hm => by cases hm) accConc (by decide +kernel) accConc_ok hnf
    (quiet_of_check (by decide +kernel)) (distinct_of_check (by decide +kernel))
    [go!"G1", go!"G2"] (by decide) (by decide)
    (fun x hx => ⟨hx, accConc_up x hx, accuse, .accInit (of_decide_eq_true (List.all_eq_true.1 hh x hx))⟩) y hy (accConc_up y hy)

end Ref
end CTng
