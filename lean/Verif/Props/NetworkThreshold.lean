import Verif.Proofs.NetworkThreshold
/- C35 (serial networks), C91, C92: threshold signing across a network of gossipers. -/
set_option autoImplicit false

namespace CTng
variable {L : Lib}

/-- C35. A network of gossipers that execute requests one at a time does nothing that the network of concurrent gossipers
could not do: to each of its states there is a reachable state of the concurrent network with the same stores, blacklists,
timers and posts at every gossiper, the same messages under way, and no goroutine with work left. -/
theorem C35_serial_networks_are_networks (N : NetConf L) (h : List SEvent) : ∃ h' : List NEvent,
    (∀ x, ((nrun N Net.init h').node x).g = (srun N SNet.init h).node x) ∧
    (∀ x, ∀ t ∈ ((nrun N Net.init h').node x).threads, t.frames = []) ∧
    (nrun N Net.init h').flight = (srun N SNet.init h).flight := by
  obtain ⟨h', hs, _, _⟩ := srun_same (N := N) same_init h
  exact ⟨h', hs.node, hs.idle, hs.flight⟩

/-! ### Specification -/

/-- The beginning of the round of a statement: no gossiper holds, waits for or has saved anything about its entity. Messages
may still be under way, none of which is an obstacle to the round. -/
structure SRoundStart (N : NetConf L) (pub : L.BlsSec → L.BlsPub) (R : Round) (s : SNet) : Prop where
  reach : SReach N s
  objs : ∀ x ∈ N.ids, ∀ k o t, HeldAs (s.node x).storage k o t → o.payload.p0 ≠ R.pay.p0
  frags : ∀ x ∈ N.ids, ∀ k l t, FragsAt (s.node x).storage k l t → ∀ f ∈ l, f.payload.p0 ≠ R.pay.p0
  payloads : ∀ x ∈ N.ids, ∀ k o, (s.node x).storage.revPayload.get k = some o → o.payload.p0 ≠ R.pay.p0
  timers : ∀ x ∈ N.ids, ∀ g ∈ (s.node x).timers, g.payload.p0 ≠ R.pay.p0
  flight : ∀ m ∈ s.flight, m.dst ∈ N.ids → ∀ q, m.body = .obj q → MsgOK (N.conf m.dst).crypto pub R q

/-- The end of the round: nothing is under way between gossipers and the timers about the entity have run. -/
structure SRoundEnd (N : NetConf L) (R : Round) (s : SNet) : Prop where
  flight : ∀ m ∈ s.flight, m.dst ∉ N.ids
  timers : ∀ x ∈ N.ids, s.up x → ∀ g ∈ (s.node x).timers, g.payload.p0 ≠ R.pay.p0

/-- A threshold-signed object with the statement of the round is held, verifies and was sent to the owner. -/
def Certified (cf : GConf L) (R : Round) (s : GState) : Prop :=
  ∃ k o, HeldAs s.storage k o R.kind.full ∧ o.verify cf.crypto = .ok ∧ o.payload = R.pay ∧ .owner o ∈ s.out

/-! ### Lemmas -/

theorem Kind.fragTarget_eq (k : Kind) : fragTarget k.frag = k.full := by cases k <;> rfl

theorem fragsAt_of_mem {s : Storage} {t : GType} {k : GossipID} {f : GossipObj} (h : f ∈ s.fragList t k) :
    ∃ l, FragsAt s k l t ∧ f ∈ l := by
  unfold Storage.fragList at h
  cases hg : (s.frags t).get k with
  | none => rw [hg] at h; simp at h
  | some l =>
    rw [hg] at h
    refine ⟨l, ?_, h⟩
    cases t with
    | STH_FRAG => exact .sth hg
    | REV_FRAG => exact .rev hg
    | ACC_FRAG => exact .acc hg
    | _ => simp [Storage.frags] at hg

theorem SRoundStart.inv {N : NetConf L} {pub : L.BlsSec → L.BlsPub} {R : Round} {s : SNet} (hM : Mesh N)
    (h : SRoundStart N pub R s) (opt : Bool) : SInv N pub R opt s := by
  have hempty : ∀ x ∈ N.ids, (s.node x).storage.fragList R.kind.frag R.key = [] := by
    intro x hx
    cases hl : (s.node x).storage.fragList R.kind.frag R.key with
    | nil => rfl
    | cons f r =>
      have hf : f ∈ (s.node x).storage.fragList R.kind.frag R.key := by rw [hl]; simp
      obtain ⟨l, h1, h2⟩ := fragsAt_of_mem hf
      have := ((h.reach.greach x).storageInv.frags _ _ f hf).1
      exact absurd (congrArg GossipID.entity this) (h.frags x hx _ l _ h1 f h2)
  refine ⟨h.reach.greach, ?_, ?_, ?_, fun m hm hd q hq => .of (h.flight m hm hd q hq), ?_⟩
  · intro x hx
    refine ⟨?_, ?_, ?_, ?_, ?_⟩
    · intro k o ho hp; exact absurd hp (h.objs x hx k o _ (heldAs_iff.2 ho))
    · intro g hg _ hp; exact absurd hp (h.timers x hx g hg)
    · intro k f hf hp
      obtain ⟨l, h1, h2⟩ := fragsAt_of_mem hf
      exact absurd hp (h.frags x hx _ l _ h1 f h2)
    · intro k o ho hp; exact absurd hp (h.objs x hx k o _ (heldAs_iff.2 ho))
    · intro _ k o ho hp; exact absurd hp (h.payloads x hx k o ho)
  · intro x hx hh
    obtain ⟨o, ho⟩ := (GoMap.has_iff _ _).1 hh
    have := ((h.reach.greach x).storageInv.objs _ _ o ho).1
    exact absurd (congrArg GossipID.entity this) (h.objs x hx _ o _ (heldAs_iff.2 ho))
  · intro x hx
    refine ⟨(h.reach.greach x).fullsSent, ?_⟩
    rw [hempty x hx]
    intro hl
    have := hM.threshold x hx
    simp at hl
    omega
  · intro x hx y _ _ _ f hf
    rw [hempty x hx] at hf; cases hf

/-- Own fragments of different gossipers differ. -/
theorem ownSig_inj (J : L.JsonLaws) {pub : L.BlsSec → L.BlsPub} (B : L.BlsLaws pub) {a b : CryptoConfig L} {R : Round} {σ τ : Sig2}
    (ha : OwnSig a R σ) (hb : OwnSig b R τ) (ha1 : a.thresholdScheme = go!"bls") (hb1 : b.thresholdScheme = go!"bls")
    (ha2 : Safe a.selfID) (hb2 : Safe b.selfID) (e : σ = τ) : a.selfID = b.selfID := by
  subst e
  unfold OwnSig at ha hb
  rw [thresholdSign_eq a ha1] at ha
  rw [thresholdSign_eq b hb1] at hb
  obtain ⟨s1, h1, h2⟩ := C10_fragment_roundtrip J pub B (L.blsSign a.thresholdSecretKey R.pay.cat) a.selfID ha2
  obtain ⟨s2, h3, h4⟩ := C10_fragment_roundtrip J pub B (L.blsSign b.thresholdSecretKey R.pay.cat) b.selfID hb2
  simp only at ha hb
  rw [h1] at ha; cases ha
  rw [h3] at hb; cases hb
  rw [h2] at h4
  have := congrArg (fun x => x.1.id) h4
  simpa using this

/-- With as many own fragments kept as the threshold, every running gossiper ends with a full list or the entity blacklisted. -/
theorem round_full {N : NetConf L} {pub : L.BlsSec → L.BlsPub} {R : Round} {opt : Bool} (hN : NetBase N pub R opt) {s : SNet}
    (hI : SInv N pub R opt s)
    (hq : ∀ m ∈ s.flight, m.dst ∉ N.ids) (T : Int) (hT : ∀ x ∈ N.ids, (N.conf x).crypto.threshold = T)
    (hid : ∀ x ∈ N.ids, ∀ y ∈ N.ids, (N.conf x).crypto.selfID = (N.conf y).crypto.selfID → x = y)
    (xs : List Str) (hn : xs.Nodup) (hsub : ∀ x ∈ xs, x ∈ N.ids) (hlen : T ≤ (xs.length : Int))
    (hown : ∀ x ∈ xs, ∃ σ, OwnSig (N.conf x).crypto R σ ∧ Kept (N.conf x) R.kind.frag R.key σ (s.node x))
    (y : Str) (hy : y ∈ N.ids) (hup : s.up y) :
    (s.node y).blacklist.has R.pay.p0 = true ∨ HasFull (s.node y) R.kind.full R.pay.p0 := by
  classical
  by_cases hb : (s.node y).blacklist.has R.pay.p0 = true
  · exact .inl hb
  have hfull : T ≤ (((s.node y).storage.fragList R.kind.frag R.key).length : Int) := by
    apply Classical.byContradiction
    intro hnf
    have claim1 : ∀ x ∈ N.ids, ∀ f ∈ (s.node x).storage.fragList R.kind.frag R.key,
        f.sig ∈ ((s.node y).storage.fragList R.kind.frag R.key).map (·.sig) := by
      intro x hx f hf
      by_cases hxy : x = y
      · subst hxy; exact List.mem_map.2 ⟨f, hf, rfl⟩
      · rcases hI.flood x hx y hy hxy hup f hf with (h | h | ⟨f', hf', e⟩) | h
        · exact absurd h hb
        · rw [hT y hy] at h; exact absurd h hnf
        · exact List.mem_map.2 ⟨f', hf', e⟩
        · exact absurd hy (hq _ h)
    have claim2 : ∀ x ∈ N.ids, ¬ T ≤ (((s.node x).storage.fragList R.kind.frag R.key).length : Int) := by
      intro x hx hl
      have hnd : (((s.node x).storage.fragList R.kind.frag R.key).map (·.sig)).Nodup := by
        have := (hI.reach x).fragsDistinct (N.conf x) R.kind.frag R.key
        rw [List.Nodup, List.pairwise_map]; exact this
      have := length_le_of_subset hnd (b := ((s.node y).storage.fragList R.kind.frag R.key).map (·.sig)) (by
        intro σ hσ
        obtain ⟨f, hf, rfl⟩ := List.mem_map.1 hσ
        exact claim1 x hx f hf)
      simp only [List.length_map] at this
      omega
    have hex : ∀ x, ∃ σ, x ∈ xs → OwnSig (N.conf x).crypto R σ ∧ σ ∈ ((s.node y).storage.fragList R.kind.frag R.key).map (·.sig) := by
      intro x
      by_cases hx : x ∈ xs
      · obtain ⟨σ, h1, h2⟩ := hown x hx
        refine ⟨σ, fun _ => ⟨h1, ?_⟩⟩
        rcases h2 with h | ⟨f, hf, e⟩
        · rw [hT x (hsub x hx)] at h; exact absurd h (claim2 x (hsub x hx))
        · rw [← e]; exact claim1 x (hsub x hx) f hf
      · exact ⟨⟨[], []⟩, fun h => absurd h hx⟩
    obtain ⟨sg, hsg⟩ : ∃ sg : Str → Sig2, ∀ x ∈ xs, OwnSig (N.conf x).crypto R (sg x) ∧
        sg x ∈ ((s.node y).storage.fragList R.kind.frag R.key).map (·.sig) :=
      ⟨fun x => Classical.choose (hex x), fun x hx => Classical.choose_spec (hex x) hx⟩
    have hnd : (xs.map sg).Nodup := by
      have hinj : ∀ a ∈ xs, ∀ b ∈ xs, sg a = sg b → a = b := by
        intro a ha b hb' e
        have ha' := hN.keyed a (hsub a ha)
        have hb'' := hN.keyed b (hsub b hb')
        exact hid a (hsub a ha) b (hsub b hb') (ownSig_inj hN.json hN.bls (hsg a ha).1 (hsg b hb').1 ha'.bls hb''.bls ha'.safe hb''.safe e)
      clear hlen hown hsg hsub hex
      induction xs with
      | nil => simp
      | cons a l ih =>
        rw [List.nodup_cons] at hn
        rw [List.map_cons, List.nodup_cons]
        refine ⟨?_, ih hn.2 (fun c hc d hd => hinj c (by simp [hc]) d (by simp [hd]))⟩
        intro hm
        obtain ⟨b, hb', e⟩ := List.mem_map.1 hm
        have := hinj b (by simp [hb']) a (by simp) e
        exact hn.1 (this ▸ hb')
    have := length_le_of_subset hnd (b := ((s.node y).storage.fragList R.kind.frag R.key).map (·.sig)) (by
      intro σ hσ
      obtain ⟨x, hx, rfl⟩ := List.mem_map.1 hσ
      exact (hsg x hx).2)
    simp only [List.length_map] at this
    omega
  have := (hI.round y hy).done (by rw [hT y hy]; exact hfull) ?_
  · rw [Kind.fragTarget_eq] at this; exact this
  · intro f hf
    have e := ((hI.reach y).storageInv.frags _ _ f hf).1
    exact ((hI.node y hy).frags _ f hf (congrArg GossipID.entity e)).2

theorem certified_of_full {N : NetConf L} {pub : L.BlsSec → L.BlsPub} {R : Round} {opt : Bool} {s : SNet} (hI : SInv N pub R opt s)
    {y : Str} (hy : y ∈ N.ids) (h : HasFull (s.node y) R.kind.full R.pay.p0) : Certified (N.conf y) R (s.node y) := by
  obtain ⟨k, o, ho, hp⟩ := h
  obtain ⟨h1, _, _, h4⟩ := (hI.round y hy).sent _ k o R.kind.full_isFull ho
  exact ⟨k, o, heldAs_iff.2 ho, h1, (hI.node y hy).fulls k o ho hp, h4⟩

theorem Same.quiet {N : NetConf L} {s : SNet} {c : Net} (h : Same s c) (hq : ∀ m ∈ s.flight, m.dst ∉ N.ids) : Quiet N c :=
  ⟨by rw [h.flight]; exact hq, fun x _ _ => h.idle x⟩

theorem Same.up {s : SNet} {c : Net} (h : Same s c) (x : Str) : c.up x ↔ s.up x := by
  unfold Net.up SNet.up; rw [h.node]

/-- At the end of the round, if nobody running has blacklisted the entity and one running gossiper holds the statement, all do. -/
theorem serial_flood {N : NetConf L} {pub : L.BlsSec → L.BlsPub} {R : Round} (hN : NetOK N pub R) (hk : R.kind ≠ .acc) {s : SNet}
    (hs : SRoundStart N pub R s) (es : List SEvent) (hw : ∀ e ∈ es, e.noWipe = true)
    (hq : ∀ m ∈ (srun N s es).flight, m.dst ∉ N.ids) (x y : Str) (hx : x ∈ N.ids) (hy : y ∈ N.ids) (hux : (srun N s es).up x)
    (huy : (srun N s es).up y) (hb : ((srun N s es).node y).blacklist.has R.pay.p0 = false)
    (hh : (((srun N s es).node x).storage.objs R.kind.init).has R.key0 = true) :
    (((srun N s es).node y).storage.objs R.kind.init).has R.key0 = true := by
  obtain ⟨c, hc, hsame⟩ := hs.reach.toNet
  obtain ⟨es', h1, h2, _⟩ := srun_same (N := N) hsame es
  have hnot : ∀ z ∈ N.ids, ∀ t, (t = .STH_INIT ∨ t = .REV_INIT) → ((s.node z).storage.objs t).has R.key0 = false := by
    intro z hz t _
    cases h : ((s.node z).storage.objs t).has R.key0 with
    | false => rfl
    | true =>
      obtain ⟨o, ho⟩ := (GoMap.has_iff _ _).1 h
      have := ((hs.reach.greach z).storageInv.objs _ _ o ho).1
      exact absurd (congrArg GossipID.entity this) (hs.objs z hz _ o _ (heldAs_iff.2 ho))
  have hst : RoundStart N R.key0 c := by
    refine ⟨hc, ?_, ?_, ?_⟩
    · intro z hz _
      rw [hsame.node]
      exact ⟨hnot z hz .STH_INIT (.inl rfl), hnot z hz .REV_INIT (.inr rfl)⟩
    · intro z _ _ t ht; rw [hsame.idle z t ht]; simp
    · intro z _ _ t ht g _; rw [hsame.idle z t ht]; simp
  have hq' := h1.quiet hq
  have hux' := (h1.up x).2 hux
  have huy' := (h1.up y).2 huy
  have hb' : ¬ ((nrun N c es').node y).g.blacklist.has R.key0.entity = true := by
    rw [h1.node]; show ¬ ((srun N s es).node y).blacklist.has R.pay.p0 = true; rw [hb]; simp
  cases hkk : R.kind with
  | acc => exact absurd hkk hk
  | sth =>
    rw [hkk] at hh
    rcases C38_statements_flood N hN.mesh c R.key0 (by simp [Round.key0, hkk, Kind.init]) hst es' (h2 hw) hq' x y hx hy hux' huy'
      (by rw [h1.node]; exact hh) with h | h
    · exact absurd h hb'
    · rw [h1.node] at h; exact h
  | rev =>
    rw [hkk] at hh
    rcases C38_revocations_flood_unoptimised N hN.mesh (fun z hz o => ((hN.signer z hz).unopt hkk).2 o) c R.key0
      (by simp [Round.key0, hkk, Kind.init]) hst es' (h2 hw) hq' x y hx hy hux' huy' (by rw [h1.node]; exact hh) with h | h
    · exact absurd h hb'
    · rw [h1.node] at h; exact h

/-- Whoever a held full accusation names is blacklisted. -/
theorem GReach.accFullBlacklisted {cf : GConf L} {s : GState} (h : GReach cf s) :
    ∀ k o, s.storage.accFull.get k = some o → s.blacklist.has o.payload.p0 = true := by
  refine SeqClosed.reach cf (P := fun s => ∀ k o, s.storage.accFull.get k = some o → s.blacklist.has o.payload.p0 = true)
    (FineClosed.core cf ?_ ?_ ?_ ?_) ?_ ?_ h
  · intro s s' h1 h2 hs; rw [← h1, ← h2]; exact hs
  · intro clk s g hs ht hv hd hb hc k o ho
    rw [storage_storedState] at ho
    rw [blacklist_storedState]
    by_cases e : g.type = .ACC_FULL
    · have := Storage.objs_putObj_same s.storage g.type g.getID g ht
      rw [e] at this ho
      change (s.storage.putObj .ACC_FULL g.getID g).accFull = s.storage.accFull.set g.getID g at this
      rw [this, GoMap.get_set] at ho
      split at ho
      · cases ho; simp [e]
      · simp [hs k o ho]
    · have := Storage.objs_putObj_ne s.storage g.getID g (t' := .ACC_FULL) (t := g.type) (Ne.symm e)
      change (s.storage.putObj g.type g.getID g).accFull = s.storage.accFull at this
      rw [this] at ho
      simp [hs k o ho]
  · intro s g hs ht _ _ _ k o ho
    have := Storage.objs_appendFrag s.storage g.type .ACC_FULL g.getID g
    change (s.storage.appendFrag g.type g.getID g).accFull = s.storage.accFull at this
    exact hs k o (by rw [← this]; exact ho)
  · intro s g hs _ _; exact hs
  · intro k o ho; simp [GState.init, Storage.init] at ho
  · intro clk s hs k o ho
    rw [storage_periodicTask] at ho
    simp [Storage.init] at ho

/-! ### C91 -/

/-- C91, what holds: in a fully connected network whose gossipers have the same keys and threshold T and execute one request or
timer at a time, take a round in which nothing stands against the statement (`SRoundStart`, `SEvent.ok`: no equivocation, no forged
fragment, between two wipes), and at whose end nothing is under way, the timers have run, nobody running has blacklisted the entity
and at least T gossipers are running. If one running gossiper holds the STH or revocation update then every running gossiper
holds a FULL object with its payload, which verifies and was sent to the gossiper's owner. Messages, timers and posts from outside
come in any order and number; gossipers may crash. Missing: concurrent requests (`C91_distinct_fragments_partial`), for which the
claim may fail (`C91_violated_by_concurrent_duplicates`); revocations in the optimised
mode, where it fails unless fragments find the update saved (`C91_violated_by_default_optimisation`, `C91_optimised_in_order_partial`). -/
theorem C91_statements_become_full_partial {N : NetConf L} {pub : L.BlsSec → L.BlsPub} {R : Round} (hN : NetOK N pub R)
    (hk : R.kind = .sth ∨ R.kind = .rev) (T : Int) (hT : ∀ x ∈ N.ids, (N.conf x).crypto.threshold = T)
    (hid : ∀ x ∈ N.ids, ∀ y ∈ N.ids, (N.conf x).crypto.selfID = (N.conf y).crypto.selfID → x = y)
    (s : SNet) (hs : SRoundStart N pub R s) (es : List SEvent) (hw : ∀ e ∈ es, e.noWipe = true) (he : ∀ e ∈ es, e.ok N pub R)
    (hend : SRoundEnd N R (srun N s es))
    (hb : ∀ x ∈ N.ids, (srun N s es).up x → ((srun N s es).node x).blacklist.has R.pay.p0 = false)
    (xs : List Str) (hn : xs.Nodup) (hxs : ∀ x ∈ xs, x ∈ N.ids ∧ (srun N s es).up x) (hlen : T ≤ (xs.length : Int))
    (z : Str) (hz : z ∈ N.ids) (huz : (srun N s es).up z) (o : GossipObj)
    (ho : HeldAs ((srun N s es).node z).storage ⟨R.period, R.kind.init, R.pay.p0⟩ o R.kind.init)
    (y : Str) (hy : y ∈ N.ids) (huy : (srun N s es).up y) : Certified (N.conf y) R ((srun N s es).node y) := by
  have hI := srun_inv hN (hs.inv hN.mesh false) es hw he
  have hk' : R.kind ≠ .acc := by rintro h; rcases hk with h' | h' <;> rw [h] at h' <;> cases h'
  have hhz : (((srun N s es).node z).storage.objs R.kind.init).has R.key0 = true := (GoMap.has_iff _ _).2 ⟨o, heldAs_iff.1 ho⟩
  have hown : ∀ x ∈ xs, ∃ σ, OwnSig (N.conf x).crypto R σ ∧ Kept (N.conf x) R.kind.frag R.key σ ((srun N s es).node x) := by
    intro x hx
    obtain ⟨hx1, hx2⟩ := hxs x hx
    have hh := serial_flood hN hk' hs es hw hend.flight z x hz hx1 huz hx2 (hb x hx1 hx2) hhz
    rcases hI.own x hx1 hh with ⟨g, hg, e⟩ | ⟨σ, h1, h2, _⟩
    · exact absurd (congrArg GossipID.entity e) (hend.timers x hx1 hx2 g hg)
    · refine ⟨σ, h1, ?_⟩
      rcases h2 with h | h
      · rw [hb x hx1 hx2] at h; cases h
      · exact h
  rcases round_full hN.base hI hend.flight T hT hid xs hn (fun x hx => (hxs x hx).1) hlen hown y hy huy with h | h
  · rw [hb y hy huy] at h; cases h
  · exact certified_of_full hI hy h

/-! ### C92 -/

/-- C92, what holds: under the same conditions on the network, in a round in which all accusations of an entity carry the same
payload and no fragment is forged: once nothing is under way, if at least T gossipers hold the accusation then every running
gossiper has blacklisted the entity. Missing: concurrent requests (`C92_distinct_fragments_partial`,
`C92_violated_by_concurrent_duplicates`). -/
theorem C92_accusations_blacklist_partial {N : NetConf L} {pub : L.BlsSec → L.BlsPub} {R : Round} (hN : NetOK N pub R)
    (hk : R.kind = .acc) (T : Int) (hT : ∀ x ∈ N.ids, (N.conf x).crypto.threshold = T)
    (hid : ∀ x ∈ N.ids, ∀ y ∈ N.ids, (N.conf x).crypto.selfID = (N.conf y).crypto.selfID → x = y)
    (s : SNet) (hs : SRoundStart N pub R s) (es : List SEvent) (hw : ∀ e ∈ es, e.noWipe = true) (he : ∀ e ∈ es, e.ok N pub R)
    (hend : ∀ m ∈ (srun N s es).flight, m.dst ∉ N.ids)
    (xs : List Str) (hn : xs.Nodup) (hlen : T ≤ (xs.length : Int))
    (hxs : ∀ x ∈ xs, x ∈ N.ids ∧ ∃ o, HeldAs ((srun N s es).node x).storage ⟨R.period, .ACC_INIT, R.pay.p0⟩ o .ACC_INIT)
    (y : Str) (hy : y ∈ N.ids) (huy : (srun N s es).up y) : ((srun N s es).node y).blacklist.has R.pay.p0 = true := by
  have hI := srun_inv hN (hs.inv hN.mesh false) es hw he
  have hown : ∀ x ∈ xs, ∃ σ, OwnSig (N.conf x).crypto R σ ∧ Kept (N.conf x) R.kind.frag R.key σ ((srun N s es).node x) := by
    intro x hx
    obtain ⟨hx1, o, ho⟩ := hxs x hx
    have hh : (((srun N s es).node x).storage.objs R.kind.init).has R.key0 = true := by
      refine (GoMap.has_iff _ _).2 ⟨o, ?_⟩
      simp only [Round.key0, hk, Kind.init]
      exact heldAs_iff.1 ho
    rcases hI.own x hx1 hh with ⟨g, hg, e⟩ | ⟨σ, h1, _, h3⟩
    · have ht : g.type = .ACC_INIT := by
        have := congrArg GossipID.type e
        simpa [Round.key0, hk, Kind.init, GossipObj.getID] using this
      rcases (hI.reach x).timers _ g hg with h | h <;> rw [ht] at h <;> cases h
    · exact ⟨σ, h1, h3 hk⟩
  rcases round_full hN.base hI hend T hT hid xs hn (fun x hx => (hxs x hx).1) hlen hown y hy huy with h | ⟨k, o, ho, hp⟩
  · exact h
  · rw [hk] at ho
    rw [← hp]
    exact (hI.reach y).accFullBlacklisted k o ho

/-! ### Sample networks -/

namespace Ref

/-- The round of the STH `sth`, and of an accusation of L1. -/
def sthRound : Round := ⟨.sth, go!"5", sth.payload⟩
def accRound : Round := ⟨.acc, go!"5", ⟨go!"L1", [], []⟩⟩

/-- M1 accuses L1. -/
def accuse : GossipObj :=
  { sth with type := .ACC_INIT, signer := go!"M1", sig := ⟨rsaStr (go!"M1") (go!"L1"), []⟩, payload := ⟨go!"L1", [], []⟩ }

theorem mesh_net (R : Round) (hp : R.pay.p0 ≠ []) : NetOK mesh blsPub R where
  mesh := mesh_ok
  json := jsonLaws
  bls := blsLaws
  signer := by
    intro x hx
    simp only [mesh, List.mem_cons, List.not_mem_nil, or_false] at hx
    refine ⟨⟨rfl, ?_, ?_⟩, fun _ => ⟨rfl, fun _ => (by decide : (100 : Int) ≤ 1000)⟩⟩
    · rcases hx with rfl | rfl <;> rfl
    · rcases hx with rfl | rfl <;> (unfold Safe; decide)
  entity := hp

theorem mesh_start (R : Round) : SRoundStart mesh blsPub R SNet.init where
  reach := ⟨[], rfl⟩
  objs := by intro x _ k o t h; exact absurd (heldAs_iff.1 h) (by simp [SNet.init, GState.init])
  frags := by intro x _ k l t h; cases h with | sth h => cases h | rev h => cases h | acc h => cases h
  payloads := by intro x _ k o h; cases h
  timers := by intro x _ g h; cases h
  flight := by intro m h; cases h

theorem mesh_ids : ∀ x ∈ mesh.ids, ∀ y ∈ mesh.ids, (mesh.conf x).crypto.selfID = (mesh.conf y).crypto.selfID → x = y :=
  fun _ _ _ _ h => h

/-- L1's STH is posted to G1, passed to G2, and signed by both when their timers run. -/
def signHist : List SEvent :=
  [.node (go!"G1") (clk, .recv 10 sth), .deliver 0 clk, .deliver 0 clk, .node (go!"G1") (clk, .fire 0), .deliver 0 clk,
   .node (go!"G2") (clk, .fire 0), .deliver 0 clk, .deliver 0 clk, .deliver 0 clk]

/-- M1's accusation is posted to both gossipers. -/
def accuseHist : List SEvent :=
  [.node (go!"G1") (clk, .recv 10 accuse), .node (go!"G2") (clk, .recv 10 accuse), .deliver 0 clk, .deliver 0 clk,
   .deliver 0 clk, .deliver 0 clk]

def serialCheck (s : SNet) : Bool :=
  s.flight.isEmpty && [go!"G1", go!"G2"].all fun x => (s.node x).timers.isEmpty && !(s.node x).crashed

/-- Both gossipers hold the STH with two signatures. -/
example : ∀ y ∈ [go!"G1", go!"G2"], Certified (mesh.conf y) sthRound ((srun mesh SNet.init signHist).node y) := by
  have hc : serialCheck (srun mesh SNet.init signHist) = true := by decide +kernel
  have hb : ([go!"G1", go!"G2"].all fun x => !((srun mesh SNet.init signHist).node x).blacklist.has (go!"L1")) = true := by decide +kernel
  simp only [serialCheck, Bool.and_eq_true, List.all_eq_true, List.isEmpty_iff, Bool.not_eq_true'] at hc hb
  have hup : ∀ x ∈ mesh.ids, (srun mesh SNet.init signHist).up x := fun x hx => (hc.2 x hx).2
  intro y hy
  refine C91_statements_become_full_partial (mesh_net sthRound (by decide)) (.inl rfl) 2 (fun _ _ => rfl) mesh_ids SNet.init
    (mesh_start _) signHist (by decide) ?_ ⟨?_, ?_⟩ ?_ [go!"G1", go!"G2"] (by decide) (fun x hx => ⟨hx, hup x hx⟩) (by decide)
    (go!"G1") (by decide) (hup _ (by decide)) sth (.sthInit (by decide +kernel)) y hy (hup y hy)
  · intro e he
    simp only [signHist, List.mem_cons, List.not_mem_nil, or_false] at he
    rcases he with rfl | rfl | rfl | rfl | rfl | rfl | rfl | rfl | rfl <;> simp only [SEvent.ok]
    · intro n d h
      cases h
      refine ⟨fun _ _ _ => ⟨rfl, rfl⟩, ?_, ?_⟩ <;> intro h <;> cases h
    · intro n d h; cases h
    · intro n d h; cases h
  · rw [hc.1]; intro m hm; cases hm
  · intro x hx _ g hg; rw [(hc.2 x hx).1] at hg; cases hg
  · exact fun x hx _ => hb x hx

/-- Both gossipers blacklist L1. -/
example : ∀ y ∈ [go!"G1", go!"G2"], ((srun mesh SNet.init accuseHist).node y).blacklist.has (go!"L1") = true := by
  have hc : serialCheck (srun mesh SNet.init accuseHist) = true := by decide +kernel
  simp only [serialCheck, Bool.and_eq_true, List.all_eq_true, List.isEmpty_iff, Bool.not_eq_true'] at hc
  intro y hy
  refine C92_accusations_blacklist_partial (mesh_net accRound (by decide)) rfl 2 (fun _ _ => rfl) mesh_ids SNet.init
    (mesh_start _) accuseHist (by decide) ?_ ?_ [go!"G1", go!"G2"] (by decide) (by decide) ?_ y hy (hc.2 y hy).2
  · intro e he
    have hok : ∀ c, MsgOK c blsPub accRound accuse := by
      intro c; refine ⟨fun _ _ _ => ⟨rfl, rfl⟩, ?_, ?_⟩ <;> intro h <;> cases h
    simp only [accuseHist, List.mem_cons, List.not_mem_nil, or_false] at he
    rcases he with rfl | rfl | rfl | rfl | rfl | rfl <;> simp only [SEvent.ok]
    · intro n d h; cases h; exact hok _
    · intro n d h; cases h; exact hok _
  · rw [hc.1]; intro m hm; cases hm
  · intro x hx
    refine ⟨hx, accuse, .accInit ?_⟩
    simp only [List.mem_cons, List.not_mem_nil, or_false] at hx
    rcases hx with rfl | rfl <;> decide +kernel

/-- Gossipers G1, G2 and G3 with threshold 3. -/
def mesh3 : NetConf lib where
  ids := [go!"G1", go!"G2", go!"G3"]
  conf := fun x => { gconf with crypto := { conf x with threshold := 3 }, connected := [go!"G1", go!"G2", go!"G3"].filter (· ≠ x) }

/-- L1's STH reaches all three. G1 signs; G3 gets G1's fragment from G1 and from G2 at the same time and counts it twice. G2 signs,
which completes the list of G3. Then G3 signs. -/
def lostHist : List NEvent :=
  [.node (go!"G1") (clk, .recv 10 sth)] ++ nruns (go!"G1") 0 14 ++ [.deliver 0 clk] ++ nruns (go!"G2") 0 14 ++
  [.deliver 0 clk] ++ nruns (go!"G3") 0 14 ++ [.deliver 0 clk] ++ nruns (go!"G1") 1 5 ++ [.deliver 0 clk] ++ nruns (go!"G3") 1 5 ++
  [.deliver 0 clk] ++ nruns (go!"G1") 2 5 ++ [.deliver 0 clk] ++ nruns (go!"G2") 1 5 ++
  [.node (go!"G1") (clk, .fire 0)] ++ nruns (go!"G1") 3 12 ++ [.deliver 0 clk] ++ nruns (go!"G2") 2 12 ++
  [.deliver 0 clk, .deliver 1 clk] ++ nruns (go!"G3") 2 3 ++ nruns (go!"G3") 3 3 ++ nruns (go!"G3") 2 9 ++ nruns (go!"G3") 3 9 ++
  [.deliver 0 clk] ++ nruns (go!"G1") 4 5 ++ [.deliver 0 clk] ++ nruns (go!"G1") 5 5 ++ [.deliver 0 clk] ++ nruns (go!"G2") 3 5 ++
  [.deliver 0 clk] ++ nruns (go!"G1") 6 5 ++ [.deliver 0 clk] ++ nruns (go!"G2") 4 5 ++
  [.node (go!"G2") (clk, .fire 0)] ++ nruns (go!"G2") 5 12 ++ [.deliver 0 clk] ++ nruns (go!"G1") 7 12 ++
  [.deliver 0 clk] ++ nruns (go!"G3") 4 20 ++ [.deliver 0 clk] ++ nruns (go!"G2") 6 5 ++ [.deliver 0 clk] ++ nruns (go!"G3") 5 5 ++
  [.deliver 0 clk] ++ nruns (go!"G1") 8 5 ++ [.deliver 0 clk] ++ nruns (go!"G2") 7 5 ++
  [.node (go!"G3") (clk, .fire 0)] ++ nruns (go!"G3") 6 12

/-- M1's accusation is posted to G1, whose fragment G3 counts twice, and to G2 and G3. While G3 has stored it but not yet signed,
the fragment of G2 completes G3's list. -/
def lostAcc : List NEvent :=
  [.node (go!"G1") (clk, .recv 10 accuse)] ++ nruns (go!"G1") 0 20 ++ [.deliver 0 clk] ++ nruns (go!"G2") 0 20 ++
  [.deliver 0 clk, .deliver 1 clk] ++ nruns (go!"G3") 0 3 ++ nruns (go!"G3") 1 3 ++ nruns (go!"G3") 0 9 ++ nruns (go!"G3") 1 9 ++
  [.deliver 0 clk] ++ nruns (go!"G1") 1 5 ++ [.deliver 0 clk] ++ nruns (go!"G1") 2 5 ++ [.deliver 0 clk] ++ nruns (go!"G2") 1 5 ++
  [.deliver 0 clk] ++ nruns (go!"G1") 3 5 ++ [.deliver 0 clk] ++ nruns (go!"G2") 2 5 ++
  [.node (go!"G2") (clk, .recv 10 accuse)] ++ nruns (go!"G2") 3 20 ++
  [.node (go!"G3") (clk, .recv 10 accuse)] ++ nruns (go!"G3") 2 6 ++ [.deliver 1 clk] ++ nruns (go!"G3") 3 20 ++ nruns (go!"G3") 2 20 ++
  [.deliver 0 clk] ++ nruns (go!"G1") 4 12 ++ [.deliver 0 clk] ++ nruns (go!"G1") 5 5 ++ [.deliver 0 clk] ++ nruns (go!"G2") 4 5 ++
  [.deliver 0 clk] ++ nruns (go!"G2") 5 5 ++ [.deliver 0 clk] ++ nruns (go!"G3") 4 5

end Ref

theorem Ref.mesh3_ok : Mesh Ref.mesh3 where
  keys := fun x _ y _ => ⟨rfl, rfl, fun _ => rfl, fun _ => rfl⟩
  threshold := fun x _ => (by decide : (0 : Int) < 3)
  connected := by
    intro x hx y hy hne
    simp only [Ref.mesh3, List.mem_filter, decide_eq_true_eq]
    exact ⟨hy, fun h => hne h.symm⟩

/-- C91 fails for concurrent requests: in a fully connected network of three gossipers with threshold 3, in which one STH was
posted once and nothing else came from outside, all three hold the STH and have signed it, nothing is under way, no timer is left and
nobody is blacklisted; yet G1 and G2 hold no FULL object. G3 counted the fragment of G1 twice, made its FULL object from the fragments
of G1, G1 and G2, and did not post its own. -/
theorem C91_violated_by_concurrent_duplicates :
    let s := nrun Ref.mesh3 Net.init Ref.lostHist
    (∀ e ∈ Ref.lostHist, ∀ x clk n o, e = .node x (clk, .recv n o) → x = go!"G1" ∧ o = Ref.sth) ∧
    (∀ e ∈ Ref.lostHist, e.noWipe = true) ∧ Quiet Ref.mesh3 s ∧
    (∀ x ∈ Ref.mesh3.ids, (Ref.mesh3.conf x).crypto.threshold = 3 ∧ s.up x ∧ (s.node x).g.timers = [] ∧
      (s.node x).g.blacklist.has (go!"L1") = false ∧ HeldAs (s.node x).g.storage Ref.sth.getID Ref.sth .STH_INIT ∧
      ∃ f, .signed f ∈ (s.node x).g.out ∧ f.payload = Ref.sth.payload) ∧
    (∀ x ∈ [go!"G1", go!"G2"], ∀ k o, ¬ HeldAs (s.node x).g.storage k o .STH_FULL) := by
  refine ⟨?_, by decide +kernel, quiet_of_check (by decide +kernel), ?_, ?_⟩
  · have h : (Ref.lostHist.all fun e => match e with
        | .node x (_, .recv _ o) => decide (x = go!"G1" ∧ o = Ref.sth)
        | _ => true) = true := by decide +kernel
    intro e he x clk n o e1
    subst e1
    simpa using List.all_eq_true.1 h _ he
  · have h : (Ref.mesh3.ids.all fun x => decide (((nrun Ref.mesh3 Net.init Ref.lostHist).node x).g.crashed = false ∧
        ((nrun Ref.mesh3 Net.init Ref.lostHist).node x).g.timers = [] ∧
        ((nrun Ref.mesh3 Net.init Ref.lostHist).node x).g.blacklist.has (go!"L1") = false ∧
        ((nrun Ref.mesh3 Net.init Ref.lostHist).node x).g.storage.sthInit.get Ref.sth.getID = some Ref.sth ∧
        (((nrun Ref.mesh3 Net.init Ref.lostHist).node x).g.out.any fun f => match f with
          | .signed f => decide (f.payload = Ref.sth.payload)
          | _ => false) = true)) = true := by decide +kernel
    intro x hx
    have := of_decide_eq_true (List.all_eq_true.1 h x hx)
    obtain ⟨h1, h2, h3, h4, h5⟩ := this
    obtain ⟨f, hf, h5⟩ := List.any_eq_true.1 h5
    cases f with
    | signed f => exact ⟨rfl, h1, h2, h3, .sthInit h4, f, hf, of_decide_eq_true h5⟩
    | _ => cases h5
  · have h : ([go!"G1", go!"G2"].all fun x => ((nrun Ref.mesh3 Net.init Ref.lostHist).node x).g.storage.sthFull.entries.isEmpty) = true := by
      decide +kernel
    intro x hx k o ho
    have := List.all_eq_true.1 h x hx
    rw [List.isEmpty_iff] at this
    cases ho with
    | sthFull ho => unfold GoMap.get at ho; rw [this] at ho; cases ho

/-- C92 fails for concurrent requests: in a fully connected network of three gossipers with threshold 3, all three hold M1's
accusation of L1 and nothing is under way, but G1 and G2 have not blacklisted L1. -/
theorem C92_violated_by_concurrent_duplicates :
    let s := nrun Ref.mesh3 Net.init Ref.lostAcc
    (∀ e ∈ Ref.lostAcc, ∀ x clk n o, e = .node x (clk, .recv n o) → o = Ref.accuse) ∧
    (∀ e ∈ Ref.lostAcc, e.noWipe = true) ∧ Quiet Ref.mesh3 s ∧
    (∀ x ∈ Ref.mesh3.ids, (Ref.mesh3.conf x).crypto.threshold = 3 ∧ s.up x ∧ (s.node x).g.timers = [] ∧
      HeldAs (s.node x).g.storage Ref.accuse.getID Ref.accuse .ACC_INIT) ∧
    (∀ x ∈ [go!"G1", go!"G2"], (s.node x).g.blacklist.has (go!"L1") = false) := by
  refine ⟨?_, by decide +kernel, quiet_of_check (by decide +kernel), ?_, by decide +kernel⟩
  · have h : (Ref.lostAcc.all fun e => match e with
        | .node _ (_, .recv _ o) => decide (o = Ref.accuse)
        | _ => true) = true := by decide +kernel
    intro e he x clk n o e1
    subst e1
    simpa using List.all_eq_true.1 h _ he
  · have h : (Ref.mesh3.ids.all fun x => decide (((nrun Ref.mesh3 Net.init Ref.lostAcc).node x).g.crashed = false ∧
        ((nrun Ref.mesh3 Net.init Ref.lostAcc).node x).g.timers = [] ∧
        ((nrun Ref.mesh3 Net.init Ref.lostAcc).node x).g.storage.accInit.get Ref.accuse.getID = some Ref.accuse)) = true := by
      decide +kernel
    intro x hx
    obtain ⟨h1, h2, h3⟩ := of_decide_eq_true (List.all_eq_true.1 h x hx)
    exact ⟨rfl, h1, h2, .accInit h3⟩

end CTng
