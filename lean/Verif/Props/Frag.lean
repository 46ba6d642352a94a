import Verif.Props.GossiperThreshold
/- When a FRAG object verifies: C147. -/
set_option autoImplicit false

namespace CTng
variable {L : Lib}

/-- An acceptable FRAG object: the signature string decodes to a map with a point and an id, and the point verifies on the whole
payload under the key registered for this id. Strings that do not decode, and ids without a key, are left to the library: it is
given the zero point, the empty id and the zero key. -/
def FragValid (c : CryptoConfig L) (g : GossipObj) : Prop :=
  g.payload.p0 ≠ [] ∧ g.sig.s0 ≠ [] ∧ c.thresholdScheme = go!"bls" ∧
  ∃ σ id, L.blsVerify σ ((c.thresholdPublicMap.get id).getD L.blsZeroPub) (g.payload.p0 ++ g.payload.p1 ++ g.payload.p2) = .ok ∧
    ((∃ m, L.jsonStrMap g.sig.s0 = some m ∧ L.blsDeHex ((m.get (go!"sign")).getD []) = some σ ∧ (m.get (go!"id")).getD [] = id) ∨
     ((∀ m, L.jsonStrMap g.sig.s0 = some m → L.blsDeHex ((m.get (go!"sign")).getD []) = none) ∧ σ = L.blsZeroSig ∧ id = []))

/-- C147, what holds: a FRAG object of any kind is accepted exactly when it is an acceptable FRAG object. Missing: its Signer field. -/
theorem C147_frag_verify_iff_partial (c : CryptoConfig L) (g : GossipObj) (ht : g.type.isFrag = true) :
    g.verify c = .ok ↔ FragValid c g := by
  have e : g.verify c = verifyPayloadFrag g c := by
    unfold GossipObj.verify; cases h : g.type <;> simp_all [GType.isFrag]
  rw [e]
  unfold verifyPayloadFrag FragValid CryptoConfig.fragmentVerify Pay3.cat
  by_cases h1 : g.sig.s0 = []
  · simp [h1]
  by_cases h2 : g.payload.p0 = []
  · simp [h2]
  by_cases h3 : c.thresholdScheme = go!"bls"
  · simp only [ne_eq, h1, h2, h3, not_false_eq_true, and_self, if_true, true_and]
    have key : ∀ (σ : L.BlsSig) (id : Str), SigFragment.verify (L := L) ⟨some σ, id⟩ (g.payload.p0 ++ g.payload.p1 ++ g.payload.p2)
        c.thresholdPublicMap = L.blsVerify σ ((c.thresholdPublicMap.get id).getD L.blsZeroPub)
          (g.payload.p0 ++ g.payload.p1 ++ g.payload.p2) := fun _ _ => rfl
    refine Iff.trans (b := (SigFragment.fromStr L g.sig.s0).1.verify (g.payload.p0 ++ g.payload.p1 ++ g.payload.p2)
      c.thresholdPublicMap = .ok) ?_ ?_
    · cases (SigFragment.fromStr L g.sig.s0).1.verify (g.payload.p0 ++ g.payload.p1 ++ g.payload.p2) c.thresholdPublicMap <;> simp
    unfold SigFragment.fromStr
    cases hm : L.jsonStrMap g.sig.s0 with
    | none =>
      simp only [key]
      constructor
      · intro h; exact ⟨_, _, h, .inr ⟨by simp, rfl, rfl⟩⟩
      · rintro ⟨σ, id, h, ⟨m, hm', _⟩ | ⟨_, rfl, rfl⟩⟩
        · cases hm'
        · exact h
    | some m =>
      cases hd : L.blsDeHex ((m.get (go!"sign")).getD []) with
      | none =>
        simp only [key, hd]
        constructor
        · intro h; exact ⟨_, _, h, .inr ⟨by rintro _ ⟨⟩; exact hd, rfl, rfl⟩⟩
        · rintro ⟨σ, id, h, ⟨m', hm', h4, _⟩ | ⟨_, rfl, rfl⟩⟩
          · cases hm'; rw [hd] at h4; cases h4
          · exact h
      | some σ =>
        simp only [key, hd]
        constructor
        · intro h; exact ⟨_, _, h, .inl ⟨m, rfl, hd, rfl⟩⟩
        · rintro ⟨σ', id, h, ⟨m', hm', h4, rfl⟩ | ⟨h4, _⟩⟩
          · cases hm'; rw [hd] at h4; cases h4; exact h
          · have := h4 m rfl; rw [hd] at this; cases this
  · simp [h1, h2, h3]

/-- C147, what holds: with genuine keys, an accepted FRAG object whose signature names a registered gossiper carries exactly the
signature of this gossiper's key on the whole payload of the object. Missing: the Signer field of the object. -/
theorem C147_accepted_was_signed_partial (c : CryptoConfig L) (pub : L.BlsSec → L.BlsPub) (B : L.BlsLaws pub)
    (g : GossipObj) (ht : g.type.isFrag = true) (hv : g.verify c = .ok) (m : GoMap Str Str) (hm : L.jsonStrMap g.sig.s0 = some m)
    (σ : L.BlsSig) (hσ : L.blsDeHex ((m.get (go!"sign")).getD []) = some σ) (k : L.BlsSec)
    (hk : c.thresholdPublicMap.get ((m.get (go!"id")).getD []) = some (pub k)) :
    σ = L.blsSign k (g.payload.p0 ++ g.payload.p1 ++ g.payload.p2) := by
  obtain ⟨_, _, _, σ', id, h, ⟨m', hm', h4, rfl⟩ | ⟨h4, _⟩⟩ := (C147_frag_verify_iff_partial c g ht).1 hv
  · rw [hm] at hm'; cases hm'
    rw [hσ] at h4; cases h4
    rw [hk] at h
    exact B.unique _ _ _ h
  · have := h4 m hm; rw [hσ] at this; cases this

/-- C147, what holds: the FRAG object a gossiper makes of an INIT object is accepted by everybody who has the gossiper's key, names the
gossiper as signer, and keeps entity, payload and period. -/
theorem C147_own_accepted_partial (J : L.JsonLaws) (pub : L.BlsSec → L.BlsPub) (B : L.BlsLaws pub) (cf : GConf L) (c : CryptoConfig L)
    (hc : c.thresholdScheme = go!"bls") (hr : RegisteredSigner c pub cf.crypto) (hid : Safe cf.crypto.selfID) (g : GossipObj)
    (ht : g.type = .STH_INIT ∨ g.type = .REV_INIT ∨ g.type = .ACC_INIT) (hp : g.payload.p0 ≠ []) :
    ∃ f, generateFRAG cf g = some f ∧ f.type.isFrag = true ∧ f.signer = cf.crypto.selfID ∧ f.payload = g.payload ∧
      f.period = g.period ∧ f.verify c = .ok := by
  obtain ⟨str, h1, h2⟩ := C10_fragment_roundtrip J pub B (L.blsSign cf.crypto.thresholdSecretKey g.payload.cat) cf.crypto.selfID hid
  have hs : (cf.crypto.thresholdSign g.payload.cat).1.toStr = some str := by
    rw [CryptoConfig.thresholdSign, if_pos hr.1]; exact h1
  have hne : str ≠ [] := by
    simp only [SigFragment.toStr, Option.map_some, Option.some.injEq] at h1
    rw [← h1]; simp
  have hf : ∃ t : GType, t.isFrag = true ∧ generateFRAG cf g =
      some { g with sig := { g.sig with s0 := str }, signer := cf.crypto.selfID, cryptoScheme := go!"bls", type := t } := by
    unfold generateFRAG
    rw [hs]
    rcases ht with h | h | h <;> rw [h]
    · exact ⟨.STH_FRAG, rfl, rfl⟩
    · exact ⟨.REV_FRAG, rfl, rfl⟩
    · exact ⟨.ACC_FRAG, rfl, rfl⟩
  obtain ⟨t, hT, hf⟩ := hf
  refine ⟨_, hf, hT, rfl, rfl, rfl, ?_⟩
  have e : { g with sig := { g.sig with s0 := str }, signer := cf.crypto.selfID, cryptoScheme := go!"bls", type := t }.verify c =
      verifyPayloadFrag { g with sig := { g.sig with s0 := str }, signer := cf.crypto.selfID, cryptoScheme := go!"bls", type := t } c := by
    unfold GossipObj.verify; cases t <;> simp_all [GType.isFrag]
  rw [e, verifyPayloadFrag, if_pos ⟨hne, hp⟩]
  simp only [h2, CryptoConfig.fragmentVerify, if_pos hc, SigFragment.verify, hr.2, Option.getD_some, B.complete]

/-- C147 fails: a FRAG object is accepted with any Signer field, for any other period and as any other kind of FRAG. -/
theorem C147_violated_signer (c : CryptoConfig L) (g : GossipObj) (ht : g.type.isFrag = true) (signer period : Str) (t : GType)
    (ht' : t.isFrag = true) : { g with signer := signer, period := period, type := t }.verify c = g.verify c := by
  unfold GossipObj.verify
  cases h : g.type <;> cases t <;> simp_all [GType.isFrag] <;> rfl

namespace Ref

/-- The fragment of G1 on the tree head of L1. -/
def frag1 : GossipObj := (generateFRAG gconf sth).getD .zero

/-- C147: it is accepted at G2, as G3's too; not with another payload, and not if G3 is named in the signature. -/
example : frag1.type = .STH_FRAG ∧ frag1.signer = go!"G1" ∧ frag1.verify (conf (go!"G2")) = .ok ∧
    { frag1 with signer := go!"G3" }.verify (conf (go!"G2")) = .ok ∧
    { frag1 with payload := { frag1.payload with p1 := go!"evil" } }.verify (conf (go!"G2")) ≠ .ok ∧
    { frag1 with sig := ⟨((SigFragment.toStr lib ⟨some [tok (go!"G1") frag1.payload.cat], go!"G3"⟩).getD []), []⟩ }.verify
      (conf (go!"G2")) ≠ .ok := by decide +kernel

/-- C147: what it carries is G1's signature. -/
example : ∃ m σ k, lib.jsonStrMap frag1.sig.s0 = some m ∧ lib.blsDeHex ((m.get (go!"sign")).getD []) = some σ ∧
    (conf (go!"G2")).thresholdPublicMap.get ((m.get (go!"id")).getD []) = some (blsPub k) ∧
    σ = lib.blsSign k (frag1.payload.p0 ++ frag1.payload.p1 ++ frag1.payload.p2) := by
  have hm : (lib.jsonStrMap frag1.sig.s0).isSome = true := by decide +kernel
  obtain ⟨m, hm⟩ := Option.isSome_iff_exists.1 hm
  have hs : ((lib.jsonStrMap frag1.sig.s0).bind fun m => lib.blsDeHex ((m.get (go!"sign")).getD [])).isSome = true := by decide +kernel
  have hi : ((lib.jsonStrMap frag1.sig.s0).map fun m => (m.get (go!"id")).getD []) = some (go!"G1") := by decide +kernel
  rw [hm] at hs hi
  obtain ⟨σ, hσ⟩ := Option.isSome_iff_exists.1 hs
  have hk' : (conf (go!"G2")).thresholdPublicMap.get ((m.get (go!"id")).getD []) = some (blsPub (go!"G1")) := by
    have hi' : (m.get (go!"id")).getD [] = go!"G1" := Option.some.inj hi
    rw [hi']; rfl
  exact ⟨m, σ, go!"G1", hm, hσ, hk', C147_accepted_was_signed_partial (conf (go!"G2")) blsPub blsLaws frag1 (by decide +kernel)
    (by decide +kernel) m hm σ hσ (go!"G1") hk'⟩

end Ref
end CTng
