import Verif.Model.RootHash
import Verif.Props.Client
/- C142: the root a tree head announces. -/
set_option autoImplicit false

namespace CTng
open Client
variable {L : Lib} (X : XLib)

/-! ### Hexadecimal text, without a decoder -/

/-- A letter in lower case. -/
def lowerCase (c : UInt8) : UInt8 := if 65 ≤ c ∧ c ≤ 90 then c + 32 else c

/-- The text writes the bytes in hexadecimal, in letters of either case. -/
def HexOf (s b : Str) : Prop := s.map lowerCase = hexEncode b

set_option maxRecDepth 10000 in
theorem lower_digit (c x : UInt8) (h : fromHexDigit c = some x) : lowerCase c = hexDigit x ∧ x < 16 := by
  have key : ∀ c : UInt8, ((fromHexDigit c).all fun x => decide (lowerCase c = hexDigit x ∧ x < 16)) = true :=
    forall_uint8 (p := fun c => ((fromHexDigit c).all fun x => decide (lowerCase c = hexDigit x ∧ x < 16)) = true)
      (by decide +kernel)
  have := key c
  rw [h] at this
  exact of_decide_eq_true this

set_option maxRecDepth 10000 in
theorem digit_lower (c d : UInt8) (hd : isHexChar d = true) (h : lowerCase c = d) : fromHexDigit c = fromHexDigit d := by
  subst h
  have key : ∀ c : UInt8, isHexChar (lowerCase c) = true → fromHexDigit c = fromHexDigit (lowerCase c) :=
    forall_uint8 (p := fun c => isHexChar (lowerCase c) = true → fromHexDigit c = fromHexDigit (lowerCase c)) (by decide +kernel)
  exact key c hd

theorem byte_halves (x y : UInt8) (hx : x < 16) (hy : y < 16) : (x * 16 + y) / 16 = x ∧ (x * 16 + y) % 16 = y := by
  have h1 : x.toNat < 16 := hx
  have h2 : y.toNat < 16 := hy
  constructor <;> apply UInt8.toNat.inj <;> simp <;> omega

theorem hexDecode_iff (s b : Str) : hexDecode s = some b ↔ HexOf s b := by
  unfold HexOf
  induction s using hexDecode.induct generalizing b with
  | case1 => cases b <;> simp [hexDecode, hexEncode]
  | case2 a => cases b <;> simp [hexDecode, hexEncode]
  | case3 p q t x y r hy hx hr ih =>
    obtain ⟨l1, l2⟩ := lower_digit _ _ hr
    obtain ⟨m1, m2⟩ := lower_digit _ _ hx
    obtain ⟨e1, e2⟩ := byte_halves _ _ l2 m2
    have hd : hexDecode (p :: q :: t) = some ((x * 16 + y) :: r) := by simp only [hexDecode, hr, hx, hy]
    rw [hd]
    have hE : t.map lowerCase = hexEncode r := (ih r).1 hy
    have hE : (p :: q :: t).map lowerCase = hexEncode ((x * 16 + y) :: r) := by
      simp only [List.map_cons, hexEncode, e1, e2, l1, m1, hE]
    rw [hE]
    constructor
    · intro h; cases h; rfl
    · intro h; rw [hexEncode_inj h]
  | case4 p q t hn ih =>
    constructor
    · intro h
      simp only [hexDecode] at h
      cases h
    · intro h
      exfalso
      cases b with
      | nil => simp [hexEncode] at h
      | cons b bs =>
        simp only [List.map_cons, hexEncode, List.cons.injEq] at h
        obtain ⟨c1, c2, c3, c4, _⟩ := hexDigit_spec b
        exact hn _ _ _ ((digit_lower _ _ c1 h.1).trans c3) ((digit_lower _ _ c2 h.2.1).trans c4) ((ih bs).2 h.2.2)

theorem hexPrefix_of_decode : ∀ (s b : Str), hexDecode s = some b → hexPrefix s = b := by
  intro s
  induction s using hexDecode.induct with
  | case1 => intro b h; cases h; rfl
  | case2 a => intro b h; cases h
  | case3 p q t x y r hy hx hr ih =>
    intro b h
    simp only [hexDecode, hr, hx, hy] at h
    cases h
    simp only [hexPrefix, hr, hx, ih r hy]
  | case4 p q t hn ih =>
    intro b h
    simp only [hexDecode] at h
    cases h

theorem hexPrefix_encode_append (b t : Str) (h : hexPrefix t = []) : hexPrefix (hexEncode b ++ t) = b := by
  induction b with
  | nil => exact h
  | cons b bs ih =>
    obtain ⟨_, _, h3, h4, h5⟩ := hexDigit_spec b
    simp only [hexEncode, List.cons_append, hexPrefix, h3, h4, h5, ih]

/-! ### C142 -/

/-- C142, exactly: a root comes out if and only if the payload is the hexadecimal form, in either case, of the JSON of a tree
head, and the root it names is the hexadecimal form of the bytes returned. -/
theorem C142_extracted_iff_partial (g : GossipObj) (r : Str) :
    extractRootHash X g = some r ↔
      ∃ raw d, HexOf g.payload.p1 raw ∧ X.decSTH raw = some d ∧ HexOf d.rootHash r := by
  simp only [← hexDecode_iff]
  unfold extractRootHash
  constructor
  · intro h
    split at h
    · cases h
    · next raw hr =>
      split at h
      · cases h
      · next d hd => exact ⟨raw, d, hr, hd, h⟩
  · rintro ⟨raw, d, h1, h2, h3⟩
    rw [h1]
    simp only [h2, h3]

/-- C142, what holds: the root taken out of a tree head a logger builds is the root of the tree over its certificates: every
proof of inclusion handed out with it verifies against it. -/
theorem C142_logger_root_partial (hX : X.Laws) (c : LoggerConf L) (hid : Ascii c.signer) (t : Instant) (certs : List Cert)
    (n : Nat) (hlt : certs.length < 2 ^ 63) (b : Built) (hb : buildMerkle X c t certs n = some b) :
    ∃ r, extractRootHash X b.sth = some r ∧ r = b.root ∧
      ∀ (i : Nat) cert, certs[i]? = some cert → ∃ p, b.pois[i]? = some p ∧ verifyPOI L.sha256 r p.poi cert = true := by
  have h2 : 2 ≤ certs.length := by
    rcases Nat.lt_or_ge certs.length 2 with h | h
    · rw [buildMerkle_none X c t certs n (by omega)] at hb; cases hb
    · exact h
  obtain ⟨b', hb', _, hp, raw, d, h3, h4, h5, _⟩ := C61_logger_proofs_verify X c hX hid t certs n h2 hlt
  rw [hb] at hb'
  cases hb'
  refine ⟨b.root, ?_, rfl, ?_⟩
  · unfold extractRootHash
    rw [h3]
    simp only [h4, h5, hexDecode_encode]
  · intro i cert hi
    obtain ⟨p, q1, _, _, _, q2⟩ := hp i cert hi
    exact ⟨p, q1, q2⟩

/-- C142, what holds: two tree heads built by loggers for equally many certificates that announce one root are for the same
subjects in the same order, or the trees exhibit a collision of the hash. -/
theorem C142_root_binds_partial (hX : X.Laws) (len : Nat) (hlen : ∀ x, (L.sha256 x).length = len) (c c' : LoggerConf L)
    (hid : Ascii c.signer) (hid' : Ascii c'.signer) (t t' : Instant) (A B : List Cert) (n n' : Nat) (hA : A.length < 2 ^ 63)
    (hAB : A.length = B.length) (b b' : Built) (hb : buildMerkle X c t A n = some b) (hb' : buildMerkle X c' t' B n' = some b')
    (he : extractRootHash X b.sth = extractRootHash X b'.sth) :
    A.map (·.rawSubject) = B.map (·.rawSubject) ∨
      CollisionIn L.sha256 (treeInputs L.sha256 (A.map (·.rawSubject))) (treeInputs L.sha256 (B.map (·.rawSubject))) := by
  obtain ⟨r, h1, h2, _⟩ := C142_logger_root_partial X hX c hid t A n hA b hb
  obtain ⟨r', h1', h2', _⟩ := C142_logger_root_partial X hX c' hid' t' B n' (by omega) b' hb'
  rw [h1, h1', h2, h2'] at he
  unfold buildMerkle at hb hb'
  obtain ⟨tree, ht, rfl⟩ := Option.map_eq_some_iff.1 hb
  obtain ⟨tree', ht', rfl⟩ := Option.map_eq_some_iff.1 hb'
  exact C63_root_and_size_bind_partial L.sha256 len hlen _ _ tree tree' ht ht' (by simpa using hAB) (Option.some.inj he)

/-- C142, what holds: where a root comes out, the client goes by the same root. After accepting the tree head it has it on
file, in hexadecimal; a certificate entry with this head passes only with a proof of inclusion that verifies against it. -/
theorem C142_client_same_root_partial (cc : CryptoConfig L) (g : GossipObj) (r : Str) (h : extractRootHash X g = some r) :
    (∀ verify (m : GoMap Str Str), (handleSTHs X cc verify [g] m).1 = .accepted →
      ∃ s, (handleSTHs X cc verify [g] m).2.get (sthKey g) = some s ∧ HexOf s r) ∧
    (∀ (s : ClientState) (cert : Cert) (e : LoggerInfo), e.sth = g → entryFaulty X cc s cert e = some false →
      verifyPOI L.sha256 r e.poi.poi cert.parseTBS = true) := by
  obtain ⟨raw, d, h1, h2, h3⟩ := (C142_extracted_iff_partial X g r).1 h
  have ht : treeInfo X g = some d := by
    unfold treeInfo
    rw [hexPrefix_of_decode _ _ ((hexDecode_iff _ _).2 h1), h2]
  have hr : hexPrefix d.rootHash = r := hexPrefix_of_decode _ _ ((hexDecode_iff _ _).2 h3)
  constructor
  · intro verify m ha
    unfold handleSTHs at ha ⊢
    cases hc : check cc verify g with
    | panic => rw [hc] at ha; cases ha
    | err e => rw [hc] at ha; cases ha
    | ok =>
      simp only [ht, handleSTHs]
      exact ⟨_, GoMap.get_set_self _ _ _, h3⟩
  · intro s cert e he hf
    subst he
    unfold entryFaulty at hf
    split at hf
    · cases hf
    · split at hf
      · cases hf
      · cases hf
      · rw [ht] at hf
        simp only at hf
        split at hf
        · cases hf
        · next hroot =>
          have : (s.sthDB.get (sthKey e.sth)).getD [] = d.rootHash := by
            by_cases x : (s.sthDB.get (sthKey e.sth)).getD [] = d.rootHash
            · exact x
            · exact absurd x hroot
          rw [this, hr] at hf
          simpa using hf

/-- C142 fails: a logger can sign a tree head no root can be taken out of (its hexadecimal form is followed by something else,
and by anything after that) which verifies, and which the client accepts and keeps all the same, since it ignores the error (client/client.go:169, 234). -/
theorem C142_violated_client_lenient (hX : X.Laws) (J : L.JsonLaws) (pub : L.RsaPriv → L.RsaPub) (laws : L.RsaLaws pub)
    (k : L.RsaPriv) (hk : CanSign k) (id : Str) (hid : Safe id) (hne : id ≠ []) (cc : CryptoConfig L)
    (hc : cc.signScheme = go!"rsa") (hkey : cc.signPublicMap.get id = some (pub k)) (d : STHData) (hd : d.Plain) (period tail : Str) :
    ∃ g : GossipObj, g.payload.p0 = id ∧ g.payload.p1 = hexEncode (X.encSTH d) ++ (go!"zz" ++ tail) ∧ g.period = period ∧ g.verify cc = .ok ∧ extractRootHash X g = none ∧
      ∀ m, (handleSTHs X cc true [g] m).1 = .accepted ∧
        (handleSTHs X cc true [g] m).2.get (id ++ go!"@" ++ period) = some d.rootHash := by
  let p1 := hexEncode (X.encSTH d) ++ (go!"zz" ++ tail)
  let g : GossipObj :=
    { application := CTNG_APPLICATION, period := period, type := .STH_INIT, signer := id, signers := [],
      sig := ⟨((rsaSignMsg (id ++ p1 ++ []) k id).getD zeroSig).toStr, []⟩, timestamp := [], cryptoScheme := go!"RSA",
      payload := ⟨id, p1, []⟩ }
  have hv : g.verify cc = .ok := init_verifies J pub laws k hk id hid cc hc hkey g (.inl rfl) hne rfl
  have ht : treeInfo X g = some d := by
    show X.decSTH (hexPrefix (hexEncode (X.encSTH d) ++ (go!"zz" ++ tail))) = some d
    rw [hexPrefix_encode_append _ _ rfl, hX.sth d hd]
  refine ⟨g, rfl, rfl, rfl, hv, ?_, ?_⟩
  · cases he : extractRootHash X g with
    | none => rfl
    | some r =>
      exfalso
      obtain ⟨raw, _, h1, _⟩ := (C142_extracted_iff_partial X g r).1 he
      unfold HexOf at h1
      have hz : (122 : UInt8) ∈ g.payload.p1.map lowerCase :=
        List.mem_map.2 ⟨122, List.mem_append_right _ (List.mem_append_left _ (by decide)), by decide⟩
      rw [h1] at hz
      exact absurd (hexEncode_chars _ _ hz) (by decide)
  · intro m
    unfold handleSTHs
    have hcheck : check cc true g = .ok := hv
    rw [hcheck]
    simp only [ht, handleSTHs]
    exact ⟨trivial, GoMap.get_set_self _ _ _⟩

namespace Ref

/-- Two certificates at L1: the root comes out of the head and both proofs verify against it; its subjects are bound by it. -/
example : ∃ b, buildMerkle xlib logConf at58 [leafA, leafB] 59 = some b ∧ extractRootHash xlib b.sth = some b.root ∧
    b.root ≠ [] ∧ Ascii logConf.signer := by
  have h : ((buildMerkle xlib logConf at58 [leafA, leafB] 59).map fun b =>
      (decide (extractRootHash xlib b.sth = some b.root), decide (b.root ≠ []))) = some (true, true) := by decide +kernel
  obtain ⟨b, hb, h⟩ := Option.map_eq_some_iff.1 h
  exact ⟨b, hb, of_decide_eq_true (Prod.mk.inj h).1, of_decide_eq_true (Prod.mk.inj h).2, by unfold Ascii; decide⟩

/-- Upper case is read as well, and a head that is not hexadecimal, or whose root is not, gives no root. -/
example : HexOf (go!"4A4b") (go!"JK") ∧ hexDecode (go!"4A4b") = some (go!"JK") ∧
    extractRootHash xlib { sth with payload := ⟨go!"L1", go!"xy", []⟩ } = none ∧
    extractRootHash xlib { sth with payload := ⟨go!"L1", hexEncode (xlib.encSTH ⟨go!"L1", [], [], go!"xy", 2⟩), []⟩ } = none := by
  unfold HexOf
  decide +kernel

/-- The hypotheses of the violation. -/
example : ∃ g : GossipObj, g.payload.p0 = go!"L1" ∧ g.payload.p1 = hexEncode (xlib.encSTH ⟨go!"L1", [], [], go!"ab", 2⟩) ++ (go!"zz" ++ go!"3132") ∧
    g.period = go!"05" ∧ g.verify (conf (go!"client")) = .ok ∧
    extractRootHash xlib g = none ∧
    ∀ m, (handleSTHs xlib (conf (go!"client")) true [g] m).1 = .accepted ∧
      (handleSTHs xlib (conf (go!"client")) true [g] m).2.get (go!"L1" ++ go!"@" ++ go!"05") = some (go!"ab") :=
  C142_violated_client_lenient xlib xlaws jsonLaws rsaPub rsaLaws logConf.crypto.signSecretKey (fun d => ⟨_, rfl⟩) (go!"L1")
    (by unfold Safe; decide) (by decide) _ rfl rfl ⟨go!"L1", [], [], go!"ab", 2⟩
    ⟨by unfold Ascii; decide, by unfold Ascii; decide, by unfold Ascii; decide, by unfold Ascii; decide, by decide⟩ (go!"05") (go!"3132")

end Ref
end CTng
