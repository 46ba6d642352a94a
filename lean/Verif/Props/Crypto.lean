import Verif.Props.Verify
/-
C08-C10: threshold signing, aggregation and the string forms of signatures.
-/
set_option autoImplicit false

namespace CTng
variable {L : Lib}

/-! ### C08 -/

/-- The signers of one message as seen by `c`: each uses the BLS scheme and its key is registered under its own id. -/
def RegisteredSigner (c : CryptoConfig L) (pub : L.BlsSec → L.BlsPub) (s : CryptoConfig L) : Prop :=
  s.thresholdScheme = go!"bls" ∧ c.thresholdPublicMap.get s.selfID = some (pub s.thresholdSecretKey)

theorem mapM_some {α β : Type _} (f : α → Option β) (g : α → β) (l : List α) (h : ∀ a ∈ l, f a = some (g a)) :
    l.mapM f = some (l.map g) := by
  induction l with
  | nil => rfl
  | cons a t ih =>
    rw [List.mapM_cons, h a (by simp), ih (fun b hb => h b (by simp [hb]))]
    rfl

theorem thresholdSign_eq (s : CryptoConfig L) (h : s.thresholdScheme = go!"bls") (msg : Str) :
    s.thresholdSign msg = (⟨some (L.blsSign s.thresholdSecretKey msg), s.selfID⟩, true) := by
  unfold CryptoConfig.thresholdSign; rw [if_pos h]

/-- C08. Fragments made by at least Threshold (and at least one) registered signers aggregate in any order, the aggregate
verifies, and lists exactly the signers. -/
theorem C08_threshold_signing_complete (pub : L.BlsSec → L.BlsPub) (B : L.BlsLaws pub) (c : CryptoConfig L)
    (hc : c.thresholdScheme = go!"bls") (signers : List (CryptoConfig L)) (hne : signers ≠ [])
    (hreg : ∀ s ∈ signers, RegisteredSigner c pub s) (hlen : c.threshold ≤ signers.length) (msg : Str)
    (frags : List (SigFragment L)) (hperm : frags.Perm (signers.map fun s => (s.thresholdSign msg).1)) :
    ∃ t, c.thresholdAggregate frags = .ok t ∧ c.thresholdVerify msg t = .ok ∧
      t.ids.Perm (signers.map (·.selfID)) ∧ ∀ f ∈ frags, c.fragmentVerify msg f = .ok := by
  have hfr : signers.map (fun s => (s.thresholdSign msg).1) =
      signers.map fun s => (⟨some (L.blsSign s.thresholdSecretKey msg), s.selfID⟩ : SigFragment L) := by
    apply List.map_congr_left
    intro s hs; rw [thresholdSign_eq s (hreg s hs).1]
  rw [hfr] at hperm
  let real : SigFragment L → L.BlsSig := fun f => f.sign.getD L.blsZeroSig
  have hsome : ∀ f ∈ frags, f.sign = some (real f) := by
    intro f hf
    obtain ⟨s, _, rfl⟩ := List.mem_map.1 (hperm.mem_iff.1 hf)
    rfl
  have hl : ¬ ((frags.length : Int) < c.threshold) := by
    rw [hperm.length_eq, List.length_map]; omega
  have hids : (sortStr (frags.map (·.id))).Perm (signers.map (·.selfID)) := by
    refine (sortStr_perm _).trans ?_
    have := hperm.map (·.id)
    simpa [List.map_map, Function.comp_def] using this
  refine ⟨⟨sortStr (frags.map (·.id)), some (L.blsAggregate (frags.map real))⟩, ?_, ?_, hids, ?_⟩
  · unfold CryptoConfig.thresholdAggregate thresholdAggregate
    rw [if_pos hc, if_neg hl, mapM_some _ real _ hsome]
  · unfold CryptoConfig.thresholdVerify ThresholdSig.verify
    rw [if_pos hc]
    have h1 : (frags.map real).Perm ((signers.map (·.thresholdSecretKey)).map fun k => L.blsSign k msg) := by
      have := hperm.map real
      simpa [List.map_map, Function.comp_def, real] using this
    have h2 : ((sortStr (frags.map (·.id))).map fun i => (c.thresholdPublicMap.get i).getD L.blsZeroPub).Perm
        ((signers.map (·.thresholdSecretKey)).map pub) := by
      refine (hids.map _).trans ?_
      rw [List.map_map, List.map_map]
      refine List.Perm.of_eq (List.map_congr_left ?_)
      intro s hs
      simp [(hreg s hs).2]
    simp only
    rw [B.agg_perm _ _ h1, B.ver_perm _ _ _ _ h2, B.aggregate _ _ (by simpa using hne)]
  · intro f hf
    obtain ⟨s, hs, rfl⟩ := List.mem_map.1 (hperm.mem_iff.1 hf)
    unfold CryptoConfig.fragmentVerify SigFragment.verify
    rw [if_pos hc]
    simp only [(hreg s hs).2, Option.getD_some, B.complete]

/-- G2 and G1, in this order, reach the threshold 2 of the sample network. -/
example : ∃ t, (Ref.conf (go!"G3")).thresholdAggregate
      [((Ref.conf (go!"G2")).thresholdSign (go!"m")).1, ((Ref.conf (go!"G1")).thresholdSign (go!"m")).1] = .ok t ∧
    (Ref.conf (go!"G3")).thresholdVerify (go!"m") t = .ok := by
  obtain ⟨t, h1, h2, _⟩ := C08_threshold_signing_complete Ref.blsPub Ref.blsLaws (Ref.conf (go!"G3")) rfl
    [Ref.conf (go!"G1"), Ref.conf (go!"G2")] (by simp)
    (by intro s hs; simp at hs; rcases hs with rfl | rfl <;> exact ⟨rfl, rfl⟩) (by decide) (go!"m")
    [((Ref.conf (go!"G2")).thresholdSign (go!"m")).1, ((Ref.conf (go!"G1")).thresholdSign (go!"m")).1]
    (List.Perm.swap _ _ _)
  exact ⟨t, h1, h2⟩

/-! ### C09 -/

/-- Ascending in byte order. -/
def Ascending : List Str → Prop
  | [] => True
  | [_] => True
  | a :: b :: t => Str.le a b = true ∧ Ascending (b :: t)

theorem ascending_of_sorted {l : List Str} (h : List.Pairwise (fun a b => Str.le a b = true) l) : Ascending l := by
  induction l with
  | nil => trivial
  | cons a t ih =>
    cases t with
    | nil => trivial
    | cons b t =>
      rw [List.pairwise_cons] at h
      exact ⟨h.1 b (by simp), ih h.2⟩

/-- C09. Aggregation fails exactly with fewer than `threshold` fragments; otherwise the id list is the ascending
rearrangement of the fragment ids. -/
theorem C09_aggregate_result (sigs : List (SigFragment L)) (hs : ∀ f ∈ sigs, f.sign ≠ none) (threshold : Int) :
    (thresholdAggregate sigs threshold = .err ↔ (sigs.length : Int) < threshold) ∧
    (threshold ≤ (sigs.length : Int) → ∃ t, thresholdAggregate sigs threshold = .ok t ∧
      t.ids.Perm (sigs.map (·.id)) ∧ Ascending t.ids) := by
  have hm : sigs.mapM (fun f => f.sign) = some (sigs.map fun f => f.sign.getD L.blsZeroSig) := by
    apply mapM_some
    intro f hf
    cases h : f.sign with
    | none => exact absurd h (hs f hf)
    | some x => rfl
  constructor
  · unfold thresholdAggregate
    rw [hm]
    by_cases h : (sigs.length : Int) < threshold <;> simp [h]
  · intro h
    refine ⟨⟨sortStr (sigs.map (·.id)), some (L.blsAggregate (sigs.map fun f => f.sign.getD L.blsZeroSig))⟩, ?_,
      sortStr_perm _, ascending_of_sorted (sortStr_sorted _)⟩
    unfold thresholdAggregate
    rw [if_neg (by omega), hm]

theorem mapM_perm_none {l l' : List (SigFragment L)} (h : l.Perm l') (hn : l.mapM (fun f => f.sign) = none) :
    l'.mapM (fun f => f.sign) = none := by
  cases hm : l'.mapM (fun f => f.sign) with
  | none => rfl
  | some r =>
    exfalso
    have hall : ∀ f ∈ l', f.sign ≠ none := by
      clear hn h
      induction l' generalizing r with
      | nil => simp
      | cons a t ih =>
        rw [List.mapM_cons] at hm
        cases ha : a.sign with
        | none => rw [ha] at hm; simp at hm
        | some x =>
          cases ht : t.mapM (fun f => f.sign) with
          | none => rw [ha, ht] at hm; simp at hm
          | some y =>
            intro f hf
            rcases List.mem_cons.1 hf with rfl | hf
            · simp [ha]
            · exact ih y ht f hf
    rw [mapM_some (fun f : SigFragment L => f.sign) (fun f => f.sign.getD L.blsZeroSig) l] at hn
    · cases hn
    · intro f hf
      cases hsg : f.sign with
      | none => exact absurd hsg (hall f (h.mem_iff.1 hf))
      | some x => rfl

/-- C09. The order in which fragments arrive is irrelevant. -/
theorem C09_aggregate_order_independent (pub : L.BlsSec → L.BlsPub) (B : L.BlsLaws pub)
    (sigs sigs' : List (SigFragment L)) (h : sigs.Perm sigs') (threshold : Int) :
    thresholdAggregate sigs threshold = thresholdAggregate sigs' threshold := by
  unfold thresholdAggregate
  rw [h.length_eq]
  split
  · rfl
  · cases hm : sigs.mapM (fun f => f.sign) with
    | none => rw [mapM_perm_none h hm]
    | some r =>
      cases hm' : sigs'.mapM (fun f => f.sign) with
      | none => rw [mapM_perm_none h.symm hm'] at hm; cases hm
      | some r' =>
        have e : ∀ (l : List (SigFragment L)) r, l.mapM (fun f => f.sign) = some r → l.map (·.sign) = r.map some := by
          intro l
          induction l with
          | nil => intro r h; simp at h; subst h; rfl
          | cons a t ih =>
            intro r h
            rw [List.mapM_cons] at h
            cases ha : a.sign with
            | none => rw [ha] at h; simp at h
            | some x =>
              cases ht : t.mapM (fun f => f.sign) with
              | none => rw [ha, ht] at h; simp at h
              | some y =>
                rw [ha, ht] at h
                simp at h; subst h
                simp [ha, ih y ht]
        have hp : r.Perm r' := by
          have := h.map (·.sign)
          rw [e _ _ hm, e _ _ hm'] at this
          have := this.filterMap id
          simpa [List.filterMap_map] using this
        simp only
        rw [B.agg_perm _ _ hp, (sortStr_eq_iff_perm _ _).2 (h.map (·.id))]

example : thresholdAggregate (L := Ref.lib)
    [((Ref.conf (go!"G2")).thresholdSign (go!"m")).1, ((Ref.conf (go!"G1")).thresholdSign (go!"m")).1] 2 =
  thresholdAggregate [((Ref.conf (go!"G1")).thresholdSign (go!"m")).1, ((Ref.conf (go!"G2")).thresholdSign (go!"m")).1] 2 :=
  C09_aggregate_order_independent Ref.blsPub Ref.blsLaws _ _ (List.Perm.swap _ _ _) 2

/-! ### C10 -/

/-- C10. The string form of an RSA signature decodes to the signature. -/
theorem C10_rsa_roundtrip (J : L.JsonLaws) (r : RSASig) (hid : Safe r.id) : RSASig.fromStr L r.toStr = some r :=
  rsaSig_roundtrip J r hid

/-- C10. The string form of a fragment decodes to the fragment. -/
theorem C10_fragment_roundtrip (J : L.JsonLaws) (pub : L.BlsSec → L.BlsPub) (B : L.BlsLaws pub) (σ : L.BlsSig) (id : Str)
    (hid : Safe id) : ∃ str, SigFragment.toStr L ⟨some σ, id⟩ = some str ∧ SigFragment.fromStr L str = (⟨some σ, id⟩, true) := by
  refine ⟨_, rfl, ?_⟩
  obtain ⟨m, h1, h2, h3⟩ := J.two (go!"sign") (L.blsSerHex σ) (go!"id") id (by unfold Safe; decide) (B.hex_safe σ)
    (by unfold Safe; decide) hid (by decide)
  have e : L.jsonStrMap (go!"{\"sign\":\"" ++ L.blsSerHex σ ++ go!"\",\"id\":\"" ++ id ++ go!"\"}") = some m := by
    rw [← h1]; simp
  unfold SigFragment.fromStr
  rw [e]
  simp only [h2, h3, Option.getD_some, B.hex]

/-- C10. The string form of an aggregate decodes to the aggregate. -/
theorem C10_threshold_roundtrip (J : L.JsonLaws) (pub : L.BlsSec → L.BlsPub) (B : L.BlsLaws pub) (σ : L.BlsSig)
    (ids : List Str) (hids : ∀ i ∈ ids, Safe i) :
    ∃ str, ThresholdSig.toStr L ⟨ids, some σ⟩ = some str ∧ ThresholdSig.fromStr L str = (⟨ids, some σ⟩, true) :=
  ⟨_, rfl, thresholdSig_roundtrip J pub B σ ids hids _ rfl⟩

/-- C10. Different signatures have different string forms. -/
theorem C10_rsa_string_injective (J : L.JsonLaws) (r r' : RSASig) (h : Safe r.id) (h' : Safe r'.id)
    (e : r.toStr = r'.toStr) : r = r' := by
  have a := rsaSig_roundtrip J r h
  rw [e, rsaSig_roundtrip J r' h'] at a
  exact (Option.some.inj a).symm

example : Safe (go!"localhost:9100") ∧
    RSASig.fromStr Ref.lib (RSASig.mk [1, 2, 255] (go!"localhost:9100")).toStr = some ⟨[1, 2, 255], go!"localhost:9100"⟩ :=
  ⟨by unfold Safe; decide, by decide +kernel⟩

/-- The restriction on ids matters: an id with quotes is read back as another id. -/
example : RSASig.fromStr Ref.lib (RSASig.mk [1] (go!"x\",\"id\":\"admin")).toStr = some ⟨[1], go!"admin"⟩ := by
  decide +kernel

end CTng
