import Verif.Spec.RefLib
import Verif.Proofs.GossiperBasic
/-
C01-C07: what the acceptance of a gossip object means.
-/
set_option autoImplicit false

namespace CTng
variable {L : Lib}

/-! ### Specification -/

/-- The signature string `str` decodes to bytes that verify on `msg` under the key registered for the id in `str`. -/
def RsaAccepts (c : CryptoConfig L) (str msg id bytes : Str) : Prop :=
  ∃ m, L.jsonStrMap str = some m ∧ hexDecode ((m.get (go!"sig")).getD []) = some bytes ∧
    (m.get (go!"id")).getD [] = id ∧ L.rsaVerify (c.signPublicMap.get id) (L.sha256 msg) bytes = .ok

/-- An acceptable INIT object: non-empty entity and signature, and a valid RSA signature over the three payload fields. -/
structure InitValid (c : CryptoConfig L) (g : GossipObj) : Prop where
  entity : g.payload.p0 ≠ []
  signature : g.sig.s0 ≠ []
  scheme : c.signScheme = go!"rsa"
  signed : ∃ id bytes, RsaAccepts c g.sig.s0 (g.payload.p0 ++ g.payload.p1 ++ g.payload.p2) id bytes

/-- Every registered RSA key is the public key of some private key. -/
def KeysGenuine (c : CryptoConfig L) (pub : L.RsaPriv → L.RsaPub) : Prop :=
  ∀ id p, c.signPublicMap.get id = some p → ∃ k, p = pub k

/-- The holder of `k` signed `msg` and the result is `bytes`. -/
def SignedWith (k : L.RsaPriv) (msg bytes : Str) : Prop := L.rsaSign k (L.sha256 msg) = some bytes

/-! ### Helper facts -/

theorem fromStr_iff {str : Str} {r : RSASig} : RSASig.fromStr L str = some r ↔
    ∃ m, L.jsonStrMap str = some m ∧ hexDecode ((m.get (go!"sig")).getD []) = some r.sig ∧
      (m.get (go!"id")).getD [] = r.id := by
  unfold RSASig.fromStr
  cases hj : L.jsonStrMap str with
  | none => simp
  | some m =>
    cases hh : hexDecode ((m.get (go!"sig")).getD []) with
    | none => simp [hh]
    | some b =>
      obtain ⟨rs, ri⟩ := r
      simp [hh]

theorem config_verify_ok {c : CryptoConfig L} {msg : Str} {r : RSASig} :
    c.verify msg r = .ok ↔ c.signScheme = go!"rsa" ∧ L.rsaVerify (c.signPublicMap.get r.id) (L.sha256 msg) r.sig = .ok := by
  unfold CryptoConfig.verify rsaVerifyMsg
  split
  · cases h : L.rsaVerify (c.signPublicMap.get r.id) (L.sha256 msg) r.sig <;> simp_all
  · simp_all

theorem rsaPayload_ok {c : CryptoConfig L} {g : GossipObj} : verifyRSAPayload g c = .ok ↔ InitValid c g := by
  unfold verifyRSAPayload
  constructor
  · intro h
    split at h
    · rename_i hne
      split at h
      · cases h
      · rename_i r hr
        obtain ⟨m, h1, h2, h3⟩ := fromStr_iff.1 hr
        obtain ⟨a, b⟩ := config_verify_ok.1 h
        exact ⟨hne.2, hne.1, a, r.id, r.sig, m, h1, h2, h3, b⟩
    · cases h
  · rintro ⟨h1, h2, h3, id, bytes, m, h4, h5, h6, h7⟩
    rw [if_pos ⟨h2, h1⟩, (fromStr_iff (r := ⟨bytes, id⟩)).2 ⟨m, h4, h5, h6⟩]
    exact config_verify_ok.2 ⟨h3, h7⟩

/-! ### C01 -/

/-- C01. An STH_INIT, REV_INIT or ACC_INIT is accepted exactly when it is an acceptable INIT object. -/
theorem C01_init_verify_iff (c : CryptoConfig L) (g : GossipObj)
    (ht : g.type = .STH_INIT ∨ g.type = .REV_INIT ∨ g.type = .ACC_INIT) :
    g.verify c = .ok ↔ InitValid c g := by
  rw [← rsaPayload_ok]
  unfold GossipObj.verify
  rcases ht with h | h | h <;> rw [h]

/-- C01. With genuine keys, acceptance means that the holder of the key registered for the id inside the signature signed
the concatenated payload. -/
theorem C01_accepted_was_signed (c : CryptoConfig L) (pub : L.RsaPriv → L.RsaPub) (laws : L.RsaLaws pub)
    (hk : KeysGenuine c pub) (g : GossipObj)
    (ht : g.type = .STH_INIT ∨ g.type = .REV_INIT ∨ g.type = .ACC_INIT) (hv : g.verify c = .ok) :
    ∃ id bytes k, RsaAccepts c g.sig.s0 (g.payload.p0 ++ g.payload.p1 ++ g.payload.p2) id bytes ∧
      c.signPublicMap.get id = some (pub k) ∧ SignedWith k (g.payload.p0 ++ g.payload.p1 ++ g.payload.p2) bytes := by
  obtain ⟨_, _, _, id, bytes, m, h1, h2, h3, h4⟩ := (C01_init_verify_iff c g ht).1 hv
  cases hp : c.signPublicMap.get id with
  | none => rw [hp] at h4; exact absurd h4 (laws.absent _ _)
  | some p =>
    obtain ⟨k, rfl⟩ := hk id p hp
    refine ⟨id, bytes, k, ⟨m, h1, h2, h3, h4⟩, hp, ?_⟩
    rw [hp] at h4
    exact laws.unique _ _ _ h4

theorem rsaSig_roundtrip (J : L.JsonLaws) (r : RSASig) (hid : Safe r.id) : RSASig.fromStr L r.toStr = some r := by
  have hsafe : Safe (hexEncode r.sig) := Ref.hexEncode_safe r.sig
  obtain ⟨m, h1, h2, h3⟩ := J.two (go!"sig") (hexEncode r.sig) (go!"id") r.id (by unfold Safe; decide) hsafe
    (by unfold Safe; decide) hid (by decide)
  refine fromStr_iff.2 ⟨m, ?_, ?_, ?_⟩
  · rw [← h1]; simp [RSASig.toStr]
  · rw [h2]; exact hexDecode_encode _
  · rw [h3]; rfl

/-- C01, completeness. What a registered signer signs with `Sign` is accepted by everyone who has its key. -/
theorem C01_signed_is_accepted (J : L.JsonLaws) (pub : L.RsaPriv → L.RsaPub) (laws : L.RsaLaws pub)
    (signer c : CryptoConfig L) (hs : signer.signScheme = go!"rsa") (hc : c.signScheme = go!"rsa")
    (hkey : c.signPublicMap.get signer.selfID = some (pub signer.signSecretKey)) (hid : Safe signer.selfID)
    (g : GossipObj) (ht : g.type = .STH_INIT ∨ g.type = .REV_INIT ∨ g.type = .ACC_INIT) (hp : g.payload.p0 ≠ [])
    (r : RSASig) (hr : signer.sign (g.payload.p0 ++ g.payload.p1 ++ g.payload.p2) = some r) (hsig : g.sig.s0 = r.toStr) :
    g.verify c = .ok := by
  unfold CryptoConfig.sign at hr
  rw [if_pos hs] at hr
  unfold rsaSignMsg at hr
  cases hsg : L.rsaSign signer.signSecretKey (L.sha256 (g.payload.p0 ++ g.payload.p1 ++ g.payload.p2)) with
  | none => rw [hsg] at hr; cases hr
  | some b =>
    rw [hsg] at hr; simp at hr; subst hr
    rw [C01_init_verify_iff c g ht]
    have hrt := rsaSig_roundtrip J (⟨b, signer.selfID⟩ : RSASig) hid
    rw [← hsig] at hrt
    obtain ⟨m, h1, h2, h3⟩ := fromStr_iff.1 hrt
    refine ⟨hp, ?_, hc, signer.selfID, b, m, h1, h2, h3, ?_⟩
    · rw [hsig]; simp [RSASig.toStr]
    · rw [hkey]; exact laws.complete _ _ _ hsg

example : Ref.sth.verify (Ref.conf (go!"G1")) = .ok ∧ InitValid (Ref.conf (go!"G1")) Ref.sth := by
  have h : Ref.sth.verify (Ref.conf (go!"G1")) = .ok := by decide +kernel
  exact ⟨h, (C01_init_verify_iff _ _ (.inl rfl)).1 h⟩

example : { Ref.sth with payload := ⟨go!"L1", go!"rootC", go!"7"⟩ }.verify (Ref.conf (go!"G1")) ≠ .ok := by
  decide +kernel

/-! ### C02 -/

/-- The ten published type URLs. -/
def knownTypes : List Str :=
  [go!"http://ctng.uconn.edu/101", go!"http://ctng.uconn.edu/102", go!"http://ctng.uconn.edu/103",
   go!"http://ctng.uconn.edu/104", go!"http://ctng.uconn.edu/201", go!"http://ctng.uconn.edu/202",
   go!"http://ctng.uconn.edu/203", go!"http://ctng.uconn.edu/301", go!"http://ctng.uconn.edu/302",
   go!"http://ctng.uconn.edu/303"]

theorem ofStr_unknown {str : Str} (h : str ∉ knownTypes) : GType.ofStr str = .other str := by
  simp only [knownTypes, List.mem_cons, List.not_mem_nil, or_false, not_or] at h
  simp [GType.ofStr, GType.toStr, h]

theorem ofStr_toStr_known (t : GType) (h : t.isOther = false) : GType.ofStr t.toStr = t := by
  cases t <;> simp [GType.isOther] at h <;> decide

/-- C02. An object with any other type string is refused by `Verify`; a gossiper that receives it changes nothing except
its received-bytes counter. -/
theorem C02_unknown_type_inert (cf : GConf L) (clk : Clock) (s : GState) (n : Int) (g : GossipObj) (str : Str)
    (hstr : str ∉ knownTypes) (hg : g.type = GType.ofStr str) :
    g.verify cf.crypto ≠ .ok ∧
    gossipObjectHandler cf clk n s g = ({ s with trafficReceived := s.trafficReceived + n }, false) := by
  rw [ofStr_unknown hstr] at hg
  constructor
  · unfold GossipObj.verify; rw [hg]; simp
  · unfold gossipObjectHandler
    simp only [hg, reduceCtorEq, and_false, if_false]
    exact handle_other cf clk (by rw [hg]; rfl) _

example : go!"http://ctng.uconn.edu/999" ∉ knownTypes := by decide

/-! ### C03 -/

/-- C03 does not hold: whoever has any registered key `Y` can make an STH_INIT (or REV_INIT) about any entity `X`, with
any content, claiming `X` as signer, that is accepted. -/
theorem C03_violated_any_key_speaks_for_anyone (J : L.JsonLaws) (pub : L.RsaPriv → L.RsaPub) (laws : L.RsaLaws pub)
    (c : CryptoConfig L) (hc : c.signScheme = go!"rsa") (Y : Str) (k : L.RsaPriv) (hY : Safe Y)
    (hkey : c.signPublicMap.get Y = some (pub k)) (hsign : ∀ d, (L.rsaSign k d).isSome = true)
    (X p1 p2 period : Str) (hX : X ≠ []) (t : GType) (ht : t = .STH_INIT ∨ t = .REV_INIT) :
    ∃ g : GossipObj, g.type = t ∧ g.payload = ⟨X, p1, p2⟩ ∧ g.signer = X ∧ g.period = period ∧ g.verify c = .ok ∧
      (∀ id bytes, RsaAccepts c g.sig.s0 (X ++ p1 ++ p2) id bytes → id = Y) := by
  obtain ⟨b, hb⟩ := Option.isSome_iff_exists.1 (hsign (L.sha256 (X ++ p1 ++ p2)))
  let g : GossipObj := { GossipObj.zero with
    type := t, payload := ⟨X, p1, p2⟩, signer := X, period := period, sig := ⟨(RSASig.mk b Y).toStr, []⟩ }
  have hrt := rsaSig_roundtrip J (⟨b, Y⟩ : RSASig) hY
  obtain ⟨m, h1, h2, h3⟩ := fromStr_iff.1 hrt
  refine ⟨g, rfl, rfl, rfl, rfl, ?_, ?_⟩
  · rw [C01_init_verify_iff c g (by rcases ht with h | h <;> simp [g, h])]
    refine ⟨hX, by simp [g, RSASig.toStr], hc, Y, b, m, h1, h2, h3, ?_⟩
    rw [hkey]
    exact laws.complete _ _ _ hb
  · rintro id bytes ⟨m', h1', _, h3', _⟩
    have : m' = m := by
      have e : L.jsonStrMap (RSASig.mk b Y).toStr = some m' := h1'
      rw [h1] at e; exact (Option.some.inj e).symm
    subst this
    rw [← h3', h3]

/-- C03, what holds: if the id inside the accepted signature is the entity itself, then the entity's key signed the
statement. Missing: `Verify` does not compare that id with the entity or with the Signer field. -/
theorem C03_signed_by_embedded_id_partial (c : CryptoConfig L) (pub : L.RsaPriv → L.RsaPub) (laws : L.RsaLaws pub)
    (hk : KeysGenuine c pub) (g : GossipObj) (ht : g.type = .STH_INIT ∨ g.type = .REV_INIT) (hv : g.verify c = .ok)
    (hid : ∀ r, RSASig.fromStr L g.sig.s0 = some r → r.id = g.payload.p0) :
    ∃ k bytes, c.signPublicMap.get g.payload.p0 = some (pub k) ∧
      SignedWith k (g.payload.p0 ++ g.payload.p1 ++ g.payload.p2) bytes := by
  obtain ⟨id, bytes, k, ⟨m, h1, h2, h3, _⟩, h4, h5⟩ :=
    C01_accepted_was_signed c pub laws hk g (by rcases ht with h | h <;> simp [h]) hv
  have := hid ⟨bytes, id⟩ (fromStr_iff.2 ⟨m, h1, h2, h3⟩)
  simp only at this
  rw [this] at h4
  exact ⟨k, bytes, h4, h5⟩

/-- CA C1 speaks for logger L1. -/
example : { Ref.sth with sig := ⟨Ref.rsaStr (go!"C1") (go!"L1rootA7"), []⟩ }.verify (Ref.conf (go!"G1")) = .ok := by
  decide +kernel

/-! ### C04 -/

/-- C04 does not hold: an accepted INIT statement is accepted for every other period, with every other Signer field, and
as every other kind of INIT statement. -/
theorem C04_violated_replay (c : CryptoConfig L) (g : GossipObj)
    (ht : g.type = .STH_INIT ∨ g.type = .REV_INIT ∨ g.type = .ACC_INIT)
    (period signer : Str) (t : GType) (ht' : t = .STH_INIT ∨ t = .REV_INIT ∨ t = .ACC_INIT) :
    { g with period := period, signer := signer, type := t }.verify c = g.verify c := by
  unfold GossipObj.verify
  rcases ht with h | h | h <;> rcases ht' with h' | h' | h' <;> rw [h] <;> simp only [h'] <;> rfl

/-- These two byte strings are different and have the same SHA-256 value. -/
def Sha256Collision (L : Lib) (a b : Str) : Prop := a ≠ b ∧ L.sha256 a = L.sha256 b

/-- C04, what holds: the signature binds the concatenation of the payload fields. If two INIT objects with the same
signature string are accepted and their concatenated payloads differ, SHA-256 collides on these two byte strings. Missing: period, type and signer
are not covered by the signature. -/
theorem C04_payload_concatenation_bound_partial (c : CryptoConfig L) (pub : L.RsaPriv → L.RsaPub) (laws : L.RsaLaws pub)
    (hk : KeysGenuine c pub) (g g' : GossipObj)
    (ht : g.type = .STH_INIT ∨ g.type = .REV_INIT ∨ g.type = .ACC_INIT)
    (ht' : g'.type = .STH_INIT ∨ g'.type = .REV_INIT ∨ g'.type = .ACC_INIT)
    (hsig : g.sig.s0 = g'.sig.s0) (hv : g.verify c = .ok) (hv' : g'.verify c = .ok)
    (hne : g.payload.p0 ++ g.payload.p1 ++ g.payload.p2 ≠ g'.payload.p0 ++ g'.payload.p1 ++ g'.payload.p2) :
    Sha256Collision L (g.payload.p0 ++ g.payload.p1 ++ g.payload.p2) (g'.payload.p0 ++ g'.payload.p1 ++ g'.payload.p2) := by
  obtain ⟨id, bytes, k, ⟨m, h1, h2, h3, _⟩, h4, h5⟩ := C01_accepted_was_signed c pub laws hk g ht hv
  obtain ⟨id', bytes', k', ⟨m', h1', h2', h3', _⟩, h4', h5'⟩ := C01_accepted_was_signed c pub laws hk g' ht' hv'
  rw [← hsig, h1] at h1'
  cases h1'
  rw [h2] at h2'; cases h2'
  rw [h3] at h3'; subst h3'
  have hacc : L.rsaVerify (some (pub k)) (L.sha256 (g'.payload.p0 ++ g'.payload.p1 ++ g'.payload.p2)) bytes = .ok := by
    rw [← h4, h4']; exact laws.complete _ _ _ h5'
  exact ⟨hne, laws.digest _ _ _ _ h5 (laws.unique _ _ _ hacc)⟩

example : { Ref.sth with period := go!"48", signer := go!"C1", type := .REV_INIT }.verify (Ref.conf (go!"G1")) = .ok := by
  decide +kernel

/-! ### C05 -/

/-- C05 does not hold: moving bytes between the payload fields keeps an object valid, for every way of cutting the
concatenation that leaves the first field non-empty. -/
theorem C05_violated_boundaries_not_bound (c : CryptoConfig L) (g : GossipObj)
    (ht : g.type = .STH_INIT ∨ g.type = .REV_INIT ∨ g.type = .ACC_INIT) (hv : g.verify c = .ok) (p : Pay3)
    (hcat : p.p0 ++ p.p1 ++ p.p2 = g.payload.p0 ++ g.payload.p1 ++ g.payload.p2) (hp : p.p0 ≠ []) :
    { g with payload := p }.verify c = .ok := by
  obtain ⟨_, h2, h3, id, bytes, h4⟩ := (C01_init_verify_iff c g ht).1 hv
  refine (C01_init_verify_iff c { g with payload := p } ht).2 ⟨hp, h2, h3, id, bytes, ?_⟩
  rw [hcat]; exact h4

/-- C05, what holds: among payloads whose first two fields have the same lengths, the signature determines all three
fields (or SHA-256 collides). Missing: payloads cut at other positions. -/
theorem C05_fixed_lengths_bound_partial (c : CryptoConfig L) (pub : L.RsaPriv → L.RsaPub) (laws : L.RsaLaws pub)
    (hk : KeysGenuine c pub) (g g' : GossipObj)
    (ht : g.type = .STH_INIT ∨ g.type = .REV_INIT ∨ g.type = .ACC_INIT)
    (ht' : g'.type = .STH_INIT ∨ g'.type = .REV_INIT ∨ g'.type = .ACC_INIT)
    (hsig : g.sig.s0 = g'.sig.s0) (hv : g.verify c = .ok) (hv' : g'.verify c = .ok)
    (h0 : g.payload.p0.length = g'.payload.p0.length) (h1 : g.payload.p1.length = g'.payload.p1.length) :
    g.payload = g'.payload ∨
      Sha256Collision L (g.payload.p0 ++ g.payload.p1 ++ g.payload.p2) (g'.payload.p0 ++ g'.payload.p1 ++ g'.payload.p2) := by
  by_cases hcat : g.payload.p0 ++ g.payload.p1 ++ g.payload.p2 = g'.payload.p0 ++ g'.payload.p1 ++ g'.payload.p2
  · left
    rw [List.append_assoc, List.append_assoc] at hcat
    obtain ⟨a, b⟩ := List.append_inj hcat h0
    obtain ⟨b, d⟩ := List.append_inj b h1
    cases hp : g.payload
    cases hp' : g'.payload
    simp_all
  · right
    exact C04_payload_concatenation_bound_partial c pub laws hk g g' ht ht' hsig hv hv' hcat

/-- L1's statement ("L1", "rootA", "7") accepted as a statement ("L1ro", "otA7", "") about an entity "L1ro". -/
example : { Ref.sth with payload := ⟨go!"L1ro", go!"otA7", []⟩ }.verify (Ref.conf (go!"G1")) = .ok := by decide +kernel

/-! ### C06 -/

/-- An acceptable conflict proof: two valid signatures, on the second and on the third payload field. -/
def ConValid (c : CryptoConfig L) (g : GossipObj) : Prop :=
  c.signScheme = go!"rsa" ∧ (∃ id bytes, RsaAccepts c g.sig.s0 g.payload.p1 id bytes) ∧
    ∃ id bytes, RsaAccepts c g.sig.s1 g.payload.p2 id bytes

theorem con_verify_iff (c : CryptoConfig L) (g : GossipObj) (ht : g.type = .CON_INIT) :
    g.verify c = .ok ↔ ConValid c g := by
  unfold GossipObj.verify
  rw [ht]
  simp only
  unfold verifyCON
  constructor
  · intro h
    split at h
    · rename_i r1 r2 e1 e2
      split at h
      · cases h
      · cases h
      · rename_i v1 v2
        obtain ⟨m1, a1, b1, c1⟩ := fromStr_iff.1 e1
        obtain ⟨m2, a2, b2, c2⟩ := fromStr_iff.1 e2
        obtain ⟨x, y⟩ := config_verify_ok.1 v1
        obtain ⟨_, z⟩ := config_verify_ok.1 v2
        exact ⟨x, ⟨r1.id, r1.sig, m1, a1, b1, c1, y⟩, ⟨r2.id, r2.sig, m2, a2, b2, c2, z⟩⟩
      · cases h
    · cases h
  · rintro ⟨hs, ⟨i1, b1, m1, x1, y1, z1, w1⟩, ⟨i2, b2, m2, x2, y2, z2, w2⟩⟩
    rw [(fromStr_iff (r := ⟨b1, i1⟩)).2 ⟨m1, x1, y1, z1⟩, (fromStr_iff (r := ⟨b2, i2⟩)).2 ⟨m2, x2, y2, z2⟩]
    simp only
    rw [config_verify_ok.2 ⟨hs, w1⟩, config_verify_ok.2 ⟨hs, w2⟩]

/-- C06 does not hold: whoever has any registered key `Y` can convict any entity `X`, registered or not, with two copies
of a single signature by `Y` on a message that need not even mention `X`. -/
theorem C06_violated_framing (J : L.JsonLaws) (pub : L.RsaPriv → L.RsaPub) (laws : L.RsaLaws pub)
    (c : CryptoConfig L) (hc : c.signScheme = go!"rsa") (Y : Str) (k : L.RsaPriv) (hY : Safe Y)
    (hkey : c.signPublicMap.get Y = some (pub k)) (msg : Str) (hsign : (L.rsaSign k (L.sha256 msg)).isSome = true)
    (X period : Str) :
    ∃ g : GossipObj, g.type = .CON_INIT ∧ g.payload = ⟨X, msg, msg⟩ ∧ g.period = period ∧ g.verify c = .ok ∧
      (∀ id bytes, (RsaAccepts c g.sig.s0 msg id bytes ∨ RsaAccepts c g.sig.s1 msg id bytes) → id = Y) := by
  obtain ⟨b, hb⟩ := Option.isSome_iff_exists.1 hsign
  have hrt := rsaSig_roundtrip J (⟨b, Y⟩ : RSASig) hY
  obtain ⟨m, h1, h2, h3⟩ := fromStr_iff.1 hrt
  have hacc : RsaAccepts c (RSASig.mk b Y).toStr msg Y b :=
    ⟨m, h1, h2, h3, by rw [hkey]; exact laws.complete _ _ _ hb⟩
  refine ⟨{ GossipObj.zero with
    type := .CON_INIT, payload := ⟨X, msg, msg⟩, period := period,
    sig := ⟨(RSASig.mk b Y).toStr, (RSASig.mk b Y).toStr⟩ }, rfl, rfl, rfl, ?_, ?_⟩
  · rw [con_verify_iff _ _ rfl]
    exact ⟨hc, ⟨Y, b, hacc⟩, ⟨Y, b, hacc⟩⟩
  · intro id bytes h
    have : ∃ m', L.jsonStrMap (RSASig.mk b Y).toStr = some m' ∧ (m'.get (go!"id")).getD [] = id := by
      rcases h with ⟨m', a, _, d, _⟩ | ⟨m', a, _, d, _⟩ <;> exact ⟨m', a, d⟩
    obtain ⟨m', a, d⟩ := this
    rw [h1] at a; cases a
    rw [← d, h3]

/-- C06, what holds: behind an accepted conflict proof are two signatures made by registered keys, one on each of the two
statements it contains. Missing: that the two ids are the named entity, that they agree, and that the statements differ. -/
theorem C06_two_signatures_exist_partial (c : CryptoConfig L) (pub : L.RsaPriv → L.RsaPub) (laws : L.RsaLaws pub)
    (hk : KeysGenuine c pub) (g : GossipObj) (ht : g.type = .CON_INIT) (hv : g.verify c = .ok) :
    (∃ id bytes k, RsaAccepts c g.sig.s0 g.payload.p1 id bytes ∧ c.signPublicMap.get id = some (pub k) ∧
      SignedWith k g.payload.p1 bytes) ∧
    (∃ id bytes k, RsaAccepts c g.sig.s1 g.payload.p2 id bytes ∧ c.signPublicMap.get id = some (pub k) ∧
      SignedWith k g.payload.p2 bytes) := by
  obtain ⟨_, ⟨i1, b1, a1⟩, ⟨i2, b2, a2⟩⟩ := (con_verify_iff c g ht).1 hv
  have key : ∀ str msg id bytes, RsaAccepts c str msg id bytes →
      ∃ k, c.signPublicMap.get id = some (pub k) ∧ SignedWith k msg bytes := by
    rintro str msg id bytes ⟨m, _, _, _, h⟩
    cases hp : c.signPublicMap.get id with
    | none => rw [hp] at h; exact absurd h (laws.absent _ _)
    | some p =>
      obtain ⟨k, rfl⟩ := hk id p hp
      rw [hp] at h
      exact ⟨k, rfl, laws.unique _ _ _ h⟩
  obtain ⟨k1, x1, y1⟩ := key _ _ _ _ a1
  obtain ⟨k2, x2, y2⟩ := key _ _ _ _ a2
  exact ⟨⟨i1, b1, k1, a1, x1, y1⟩, ⟨i2, b2, k2, a2, x2, y2⟩⟩

/-- Logger L1 is convicted with two copies of a signature by C1. -/
example : { GossipObj.zero with
    type := .CON_INIT, period := go!"5", payload := ⟨go!"L1", go!"hi", go!"hi"⟩,
    sig := ⟨Ref.rsaStr (go!"C1") (go!"hi"), Ref.rsaStr (go!"C1") (go!"hi")⟩ }.verify (Ref.conf (go!"G1")) = .ok := by
  decide +kernel

/-! ### C07 -/

/-- An acceptable FULL object: the signature string decodes to a point and an id list such that the point verifies as an
aggregate under the keys of exactly these ids; an unregistered id counts as the zero key. -/
def FullValid (c : CryptoConfig L) (g : GossipObj) : Prop :=
  g.payload.p0 ≠ [] ∧ g.sig.s0 ≠ [] ∧ c.thresholdScheme = go!"bls" ∧
  L.blsFastAggVerify (ThresholdSig.fromStr L g.sig.s0).1.sign
    ((ThresholdSig.fromStr L g.sig.s0).1.ids.map fun i => (c.thresholdPublicMap.get i).getD L.blsZeroPub)
    (g.payload.p0 ++ g.payload.p1 ++ g.payload.p2) = .ok

theorem full_verify_iff (c : CryptoConfig L) (g : GossipObj) (ht : g.type.isFull = true) :
    g.verify c = .ok ↔ FullValid c g := by
  have e : g.verify c = verifyPayloadThreshold g c := by
    unfold GossipObj.verify; cases h : g.type <;> simp_all [GType.isFull]
  rw [e]
  unfold verifyPayloadThreshold FullValid CryptoConfig.thresholdVerify ThresholdSig.verify Pay3.cat
  by_cases h1 : g.sig.s0 = []
  · simp [h1]
  · by_cases h2 : g.payload.p0 = []
    · simp [h2]
    · by_cases h3 : c.thresholdScheme = go!"bls"
      · simp only [ne_eq, h1, h2, h3, not_false_eq_true, and_self, if_true, true_and]
        cases L.blsFastAggVerify _ _ _ <;> simp
      · simp [h1, h2, h3]

theorem thresholdSig_roundtrip (J : L.JsonLaws) (pub : L.BlsSec → L.BlsPub) (B : L.BlsLaws pub) (σ : L.BlsSig)
    (ids : List Str) (hids : ∀ i ∈ ids, Safe i) (str : Str)
    (hstr : ThresholdSig.toStr L ⟨ids, some σ⟩ = some str) :
    ThresholdSig.fromStr L str = (⟨ids, some σ⟩, true) := by
  simp only [ThresholdSig.toStr, Option.map_some, Option.some.injEq] at hstr
  subst hstr
  unfold ThresholdSig.fromStr
  rw [J.threshold _ _ (B.hex_safe σ) hids]
  simp only [B.hex]

/-- C07 does not hold: for every threshold, a single registered gossiper can produce a FULL object of any kind about any
entity that is accepted. -/
theorem C07_violated_one_signer_suffices (J : L.JsonLaws) (pub : L.BlsSec → L.BlsPub) (B : L.BlsLaws pub)
    (c : CryptoConfig L) (hc : c.thresholdScheme = go!"bls") (a : Str) (ha : Safe a) (k : L.BlsSec)
    (hkey : c.thresholdPublicMap.get a = some (pub k)) (X p1 p2 period : Str) (hX : X ≠ []) (t : GType)
    (ht : t.isFull = true) :
    ∃ g : GossipObj, g.type = t ∧ g.payload = ⟨X, p1, p2⟩ ∧ g.period = period ∧ g.verify c = .ok ∧
      (ThresholdSig.fromStr L g.sig.s0).1.ids = [a] := by
  let σ := L.blsAggregate [L.blsSign k (X ++ p1 ++ p2)]
  obtain ⟨str, hstr⟩ : ∃ str, ThresholdSig.toStr L ⟨[a], some σ⟩ = some str := ⟨_, rfl⟩
  have hrt := thresholdSig_roundtrip J pub B σ [a] (by simpa using ha) str hstr
  refine ⟨{ GossipObj.zero with type := t, payload := ⟨X, p1, p2⟩, period := period, sig := ⟨str, []⟩ },
    rfl, rfl, rfl, ?_, ?_⟩
  · rw [full_verify_iff _ _ ht]
    refine ⟨hX, ?_, hc, ?_⟩
    · simp only [ThresholdSig.toStr, Option.map_some, Option.some.injEq] at hstr
      rw [← hstr]; simp
    · simp only [hrt, List.map_cons, List.map_nil, hkey, Option.getD_some]
      exact B.aggregate [k] _ (by simp)
  · simp only [hrt]

/-- Every registered BLS key is the public key of some secret key. -/
def BlsKeysGenuine (c : CryptoConfig L) (pub : L.BlsSec → L.BlsPub) : Prop :=
  ∀ id p, c.thresholdPublicMap.get id = some p → ∃ k, p = pub k

theorem keys_split {c : CryptoConfig L} {pub : L.BlsSec → L.BlsPub} (hk : BlsKeysGenuine c pub) (ids : List Str) :
    ∃ (ks : List L.BlsSec) (n : Nat),
      (ids.filter fun i => c.thresholdPublicMap.has i).map (fun i => c.thresholdPublicMap.get i) = ks.map (fun k => some (pub k)) ∧
      (ids.map fun i => (c.thresholdPublicMap.get i).getD L.blsZeroPub).Perm
        (ks.map pub ++ List.replicate n L.blsZeroPub) := by
  induction ids with
  | nil => exact ⟨[], 0, rfl, by simp⟩
  | cons i t ih =>
    obtain ⟨ks, n, h1, h2⟩ := ih
    cases hg : c.thresholdPublicMap.get i with
    | none =>
      have hh : c.thresholdPublicMap.has i = false := by
        cases h : c.thresholdPublicMap.has i with
        | false => rfl
        | true => rw [GoMap.has_iff] at h; rw [hg] at h; simp at h
      refine ⟨ks, n + 1, by simpa [hh] using h1, ?_⟩
      simp only [List.map_cons, hg, Option.getD_none, List.replicate_succ]
      exact (List.Perm.cons _ h2).trans List.perm_middle.symm
    | some p =>
      obtain ⟨k, rfl⟩ := hk i p hg
      have hh : c.thresholdPublicMap.has i = true := by rw [GoMap.has_iff]; exact ⟨_, hg⟩
      refine ⟨k :: ks, n, by simpa [hh, hg] using h1, ?_⟩
      simp only [List.map_cons, hg, Option.getD_some, List.cons_append]
      exact List.Perm.cons _ h2

/-- C07, what holds: an accepted FULL object carries exactly the sum of the signatures, on its own payload, of the
registered signers it lists. Missing: a check that at least Threshold different registered ids are listed. -/
theorem C07_aggregate_of_listed_signers_partial (c : CryptoConfig L) (pub : L.BlsSec → L.BlsPub) (B : L.BlsLaws pub)
    (hk : BlsKeysGenuine c pub) (g : GossipObj) (ht : g.type.isFull = true) (hv : g.verify c = .ok) (σ : L.BlsSig)
    (ids : List Str) (hs : (ThresholdSig.fromStr L g.sig.s0).1 = ⟨ids, some σ⟩) :
    ∃ ks : List L.BlsSec,
      (ids.filter fun i => c.thresholdPublicMap.has i).map (fun i => c.thresholdPublicMap.get i) = ks.map (fun k => some (pub k)) ∧
      σ = L.blsAggregate (ks.map fun k => L.blsSign k (g.payload.p0 ++ g.payload.p1 ++ g.payload.p2)) := by
  obtain ⟨_, _, _, h⟩ := (full_verify_iff c g ht).1 hv
  rw [hs] at h
  obtain ⟨ks, n, h1, h2⟩ := keys_split hk ids
  rw [B.ver_perm _ _ _ _ h2] at h
  exact ⟨ks, h1, B.agg_unique _ _ _ _ h⟩

/-- One signature of G1 makes a FULL object although the threshold is 2; G1 may also be listed next to unknown ids. -/
example : { GossipObj.zero with
    type := .STH_FULL, period := go!"5", payload := ⟨go!"L1", go!"evil", go!"0"⟩,
    sig := ⟨((ThresholdSig.toStr Ref.lib ⟨[go!"G1", go!"nobody"], some [Ref.tok (go!"G1") (go!"L1evil0")]⟩).getD []), []⟩
    }.verify (Ref.conf (go!"G2")) = .ok := by
  decide +kernel

end CTng
