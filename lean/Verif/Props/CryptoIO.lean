import Verif.Proofs.Itoa
import Verif.Model.CryptoIO
import Verif.Model.Verify
import Verif.Spec.RefLib
import Verif.Props.Logger
import Verif.Base.Codec
/- C71, C87, C88: stored and generated key material. -/
set_option autoImplicit false

namespace CTng

/-! ### Helpers -/

theorem assignAll_get_gen {K V : Type} [DecidableEq K] (l : List (K × V)) : ∀ (m : GoMap K V), (l.map (·.1)).Nodup →
    (∀ e ∈ l, m.get e.1 = none) → ∀ k v, (m.assignAll l).get k = some v ↔ (k, v) ∈ l ∨ m.get k = some v := by
  induction l with
  | nil => intro m _ _ k v; simp [GoMap.assignAll]
  | cons e t ih =>
    intro m hn hm k v
    simp only [List.map_cons, List.nodup_cons] at hn
    have ih' := ih (m.set e.1 e.2) hn.2 (by
      intro e' he'
      rw [GoMap.get_set, if_neg]
      · exact hm e' (List.mem_cons_of_mem _ he')
      · intro h
        exact hn.1 (h ▸ List.mem_map_of_mem (f := (·.1)) he')) k v
    have e1 : (m.assignAll (e :: t)) = (m.set e.1 e.2).assignAll t := rfl
    rw [e1, ih', GoMap.get_set]
    by_cases hk : k = e.1
    · subst hk
      have hno : ∀ w, (e.1, w) ∉ t := fun w hw => hn.1 (List.mem_map_of_mem (f := (·.1)) hw)
      simp only [if_true, Option.some.injEq, hno, false_or, List.mem_cons, hm e List.mem_cons_self, or_false, Prod.ext_iff,
        true_and, reduceCtorEq]
      exact eq_comm
    · rw [if_neg hk]
      simp only [List.mem_cons, Prod.ext_iff, hk, false_and, false_or]

theorem assignAll_get {K V : Type} [DecidableEq K] (l : List (K × V)) (hn : (l.map (·.1)).Nodup) (k : K) (v : V) :
    ((GoMap.empty : GoMap K V).assignAll l).get k = some v ↔ (k, v) ∈ l := by
  rw [assignAll_get_gen l .empty hn (by simp)]
  simp

variable {L : Lib}

/-- Serialized BLS keys can be read back. -/
structure KeyLaws (K : KeyLib L) : Prop where
  pub : ∀ p, K.pubDe (K.pubSer p) = some p
  sec : ∀ s, K.secDe (K.secSer s) = some s

/-- Two maps with the same entries. -/
def SameMap {V : Type} (a b : GoMap Str V) : Prop := ∀ k, a.get k = b.get k

/-- Two configurations that no lookup tells apart. -/
structure SameConfig (a b : CryptoConfig L) : Prop where
  threshold : a.threshold = b.threshold
  n : a.n = b.n
  hashScheme : a.hashScheme = b.hashScheme
  signScheme : a.signScheme = b.signScheme
  thresholdScheme : a.thresholdScheme = b.thresholdScheme
  selfID : a.selfID = b.selfID
  signPublicMap : SameMap a.signPublicMap b.signPublicMap
  signSecretKey : a.signSecretKey = b.signSecretKey
  thresholdPublicMap : SameMap a.thresholdPublicMap b.thresholdPublicMap
  thresholdSecretKey : a.thresholdSecretKey = b.thresholdSecretKey

/-- Two stored configurations with the same content. -/
structure SameStored (a b : StoredConfig L) : Prop where
  threshold : a.threshold = b.threshold
  n : a.n = b.n
  hashScheme : a.hashScheme = b.hashScheme
  signScheme : a.signScheme = b.signScheme
  thresholdScheme : a.thresholdScheme = b.thresholdScheme
  selfID : a.selfID = b.selfID
  signPublicMap : SameMap a.signPublicMap b.signPublicMap
  signSecretKey : a.signSecretKey = b.signSecretKey
  thresholdPublicMap : SameMap a.thresholdPublicMap b.thresholdPublicMap
  thresholdSecretKey : a.thresholdSecretKey = b.thresholdSecretKey

/-- A Go `int` (64 bits). -/
def GoInt (n : Int) : Prop := -2 ^ 63 ≤ n ∧ n < 2 ^ 63

/-- All ids are ASCII, all numbers are Go integers: JSON keeps them. -/
structure StoredConfig.Writable (s : StoredConfig L) : Prop where
  threshold : GoInt s.threshold
  n : GoInt s.n
  hashScheme : s.hashScheme < 2 ^ 63
  self : Ascii s.selfID
  schemes : Ascii s.signScheme ∧ Ascii s.thresholdScheme
  sign : ∀ k v, s.signPublicMap.get k = some v → Ascii k
  thr : ∀ k v, s.thresholdPublicMap.get k = some v → Ascii k

/-- encoding/json on stored configurations whose strings are ASCII (other strings are changed by it). -/
def ConfJson.Laws (J : ConfJson L) : Prop := ∀ s : StoredConfig L, s.Writable → SameStored (J.dec (J.enc s)) s

/-! ### Key maps -/

theorem deserializePubs_all (K : KeyLib L) (f : Str × Str → L.BlsPub) (l : List (Str × Str)) (m : GoMap Str L.BlsPub)
    (h : ∀ e ∈ l, K.pubDe e.2 = some (f e)) : deserializePubs K m l = (m.assignAll (l.map fun e => (e.1, f e)), true) := by
  induction l generalizing m with
  | nil => rfl
  | cons e t ih =>
    rw [deserializePubs, h e (by simp)]
    simp only
    rw [ih (m.set e.1 (f e)) (fun e' he' => h e' (List.mem_cons_of_mem _ he'))]
    rfl

theorem option_ext_some {α : Type} {a b : Option α} (h : ∀ v, a = some v ↔ b = some v) : a = b := by
  cases ha : a with
  | none =>
    cases hb : b with
    | none => rfl
    | some v => rw [(h v).2 hb] at ha; cases ha
  | some v => rw [(h v).1 ha]

/-- A key map all of whose values decode is decoded completely. -/
theorem deserializePubs_get (K : KeyLib L) (m : GoMap Str Str) (h : ∀ k v, m.get k = some v → ∃ p, K.pubDe v = some p) :
    ∃ m', deserializePubs K .empty m.entries = (m', true) ∧ ∀ k, m'.get k = (m.get k).bind K.pubDe := by
  let f : Str × Str → L.BlsPub := fun e => (K.pubDe e.2).getD L.blsZeroPub
  have hf : ∀ e ∈ m.entries, K.pubDe e.2 = some (f e) := by
    intro e he
    obtain ⟨p, hp⟩ := h e.1 e.2 ((GoMap.get_eq_some_iff m _ _).2 he)
    simp [f, hp]
  refine ⟨_, deserializePubs_all K f _ _ hf, fun k => option_ext_some fun p => ?_⟩
  rw [assignAll_get _ (by rw [List.map_map]; exact m.nodup)]
  constructor
  · intro hm
    obtain ⟨e, he, heq⟩ := List.mem_map.1 hm
    cases heq
    rw [(GoMap.get_eq_some_iff m e.1 e.2).2 he]
    exact hf e he
  · intro hb
    cases hk : m.get k with
    | none => rw [hk] at hb; cases hb
    | some v =>
      rw [hk] at hb
      refine List.mem_map.2 ⟨(k, v), (GoMap.get_eq_some_iff m k v).1 hk, ?_⟩
      have : K.pubDe v = some p := hb
      simp [f, this]

theorem serializePubs_get (K : KeyLib L) (m : GoMap Str L.BlsPub) (k : Str) :
    (serializePubs K m).get k = (m.get k).map K.pubSer := by
  refine option_ext_some fun v => ?_
  unfold serializePubs
  rw [assignAll_get _ (by rw [List.map_map]; exact m.nodup)]
  constructor
  · intro hm
    obtain ⟨e, he, heq⟩ := List.mem_map.1 hm
    cases heq
    rw [(GoMap.get_eq_some_iff m e.1 e.2).2 he]; rfl
  · intro hb
    cases hk : m.get k with
    | none => rw [hk] at hb; cases hb
    | some p =>
      rw [hk] at hb
      refine List.mem_map.2 ⟨(k, p), (GoMap.get_eq_some_iff m k p).1 hk, ?_⟩
      have : K.pubSer p = v := by simpa using hb
      simp [this]

/-! ### C71: stored configurations -/

/-- What loading makes of a stored configuration whose keys all decode. -/
theorem newCryptoConfig_fields (K : KeyLib L) (s : StoredConfig L)
    (hp : ∀ k v, s.thresholdPublicMap.get k = some v → ∃ p, K.pubDe v = some p) :
    (newCryptoConfig K s).2 = (K.secDe s.thresholdSecretKey).isSome ∧
    (newCryptoConfig K s).1.threshold = s.threshold ∧ (newCryptoConfig K s).1.n = s.n ∧
    (newCryptoConfig K s).1.hashScheme = s.hashScheme ∧ (newCryptoConfig K s).1.signScheme = s.signScheme ∧
    (newCryptoConfig K s).1.thresholdScheme = s.thresholdScheme ∧ (newCryptoConfig K s).1.selfID = s.selfID ∧
    (newCryptoConfig K s).1.signPublicMap = s.signPublicMap ∧ (newCryptoConfig K s).1.signSecretKey = s.signSecretKey ∧
    (∀ k, (newCryptoConfig K s).1.thresholdPublicMap.get k = (s.thresholdPublicMap.get k).bind K.pubDe) ∧
    (newCryptoConfig K s).1.thresholdSecretKey = (K.secDe s.thresholdSecretKey).getD K.blsZeroSec := by
  obtain ⟨m', h1, h2⟩ := deserializePubs_get K s.thresholdPublicMap hp
  have e : newCryptoConfig K s = (
      { threshold := s.threshold, n := s.n, hashScheme := s.hashScheme, signScheme := s.signScheme,
        thresholdScheme := s.thresholdScheme, selfID := s.selfID, signPublicMap := s.signPublicMap,
        signSecretKey := s.signSecretKey, thresholdPublicMap := m',
        thresholdSecretKey := (K.secDe s.thresholdSecretKey).getD K.blsZeroSec }, (K.secDe s.thresholdSecretKey).isSome) := by
    unfold newCryptoConfig
    rw [h1]
    cases K.secDe s.thresholdSecretKey <;> rfl
  rw [e]
  exact ⟨rfl, rfl, rfl, rfl, rfl, rfl, rfl, rfl, rfl, h2, rfl⟩

/-- C71: reading a saved crypto configuration gives back the configuration, without error. -/
theorem C71_config_roundtrip (J : ConfJson L) (hJ : J.Laws) (K : KeyLib L) (hK : KeyLaws K) (c : CryptoConfig L)
    (hc : (newStored K c).Writable) :
    (readCrypto J K (saveCrypto J K c)).2 = true ∧ SameConfig (readCrypto J K (saveCrypto J K c)).1 c := by
  have hs := hJ _ hc
  have hmap : ∀ k, (J.dec (J.enc (newStored K c))).thresholdPublicMap.get k = (c.thresholdPublicMap.get k).map K.pubSer :=
    fun k => (hs.thresholdPublicMap k).trans (serializePubs_get K c.thresholdPublicMap k)
  obtain ⟨h0, h1, h2, h3, h4, h5, h6, h7, h8, h9, h10⟩ := newCryptoConfig_fields K (J.dec (J.enc (newStored K c))) (by
    intro k v hk
    rw [hmap] at hk
    cases hp : c.thresholdPublicMap.get k with
    | none => rw [hp] at hk; cases hk
    | some p => rw [hp] at hk; cases hk; exact ⟨p, hK.pub p⟩)
  have hsec : K.secDe (J.dec (J.enc (newStored K c))).thresholdSecretKey = some c.thresholdSecretKey := by
    rw [hs.thresholdSecretKey]; exact hK.sec _
  unfold readCrypto saveCrypto
  refine ⟨by rw [h0, hsec]; rfl, ⟨h1.trans hs.threshold, h2.trans hs.n, h3.trans hs.hashScheme, h4.trans hs.signScheme,
    h5.trans hs.thresholdScheme, h6.trans hs.selfID, ?_, h8.trans hs.signSecretKey, ?_, ?_⟩⟩
  · intro k; rw [h7]; exact hs.signPublicMap k
  · intro k
    rw [h9, hmap]
    cases c.thresholdPublicMap.get k with
    | none => rfl
    | some p => exact hK.pub p
  · rw [h10, hsec]; rfl

/-! ### C88: verify-only configurations -/

/-- Everything verification looks at. -/
structure SameVerify (a b : CryptoConfig L) : Prop where
  signScheme : a.signScheme = b.signScheme
  thresholdScheme : a.thresholdScheme = b.thresholdScheme
  signPublicMap : SameMap a.signPublicMap b.signPublicMap
  thresholdPublicMap : SameMap a.thresholdPublicMap b.thresholdPublicMap

theorem verify_congr {a b : CryptoConfig L} (h : SameVerify a b) (g : GossipObj) : g.verify a = g.verify b := by
  have h1 : ∀ m s, a.verify m s = b.verify m s := by
    intro m s; unfold CryptoConfig.verify; rw [h.signScheme, h.signPublicMap]
  have h2 : ∀ m t, a.thresholdVerify m t = b.thresholdVerify m t := by
    intro m t
    unfold CryptoConfig.thresholdVerify ThresholdSig.verify
    rw [h.thresholdScheme]
    have hg : ∀ i, a.thresholdPublicMap.get i = b.thresholdPublicMap.get i := h.thresholdPublicMap
    simp only [hg]
  have h3 : ∀ m f, a.fragmentVerify m f = b.fragmentVerify m f := by
    intro m f
    unfold CryptoConfig.fragmentVerify SigFragment.verify
    rw [h.thresholdScheme, h.thresholdPublicMap]
  unfold GossipObj.verify verifyRSAPayload verifyCON verifyPayloadFrag verifyPayloadThreshold
  simp only [h1, h2, h3]

/-- C88: a client that loads the verify-only form of a saved configuration reaches the same verdict on every object as its
owner does, and holds neither of the two secret keys. -/
theorem C88_verify_only_same_verdict (J : ConfJson L) (hJ : J.Laws) (K : KeyLib L) (hK : KeyLaws K) (c : CryptoConfig L)
    (hc : (newStored K c).Writable) :
    let r := readVerifyOnly J K (saveCrypto J K c)
    r.2 = true ∧ (∀ g : GossipObj, g.verify r.1 = g.verify c) ∧ r.1.signSecretKey = K.rsaZero ∧
      r.1.thresholdSecretKey = K.blsZeroSec := by
  have hs := hJ _ hc
  have hmap : ∀ k, (J.dec (J.enc (newStored K c))).thresholdPublicMap.get k = (c.thresholdPublicMap.get k).map K.pubSer :=
    fun k => (hs.thresholdPublicMap k).trans (serializePubs_get K c.thresholdPublicMap k)
  obtain ⟨m', h1, h2⟩ := deserializePubs_get K (J.dec (J.enc (newStored K c))).thresholdPublicMap (by
    intro k v hk
    rw [hmap] at hk
    cases hp : c.thresholdPublicMap.get k with
    | none => rw [hp] at hk; cases hk
    | some p => rw [hp] at hk; cases hk; exact ⟨p, hK.pub p⟩)
  simp only [readVerifyOnly, saveCrypto, newVerifyOnly, h1]
  refine ⟨trivial, fun g => verify_congr ⟨hs.signScheme, hs.thresholdScheme, hs.signPublicMap, ?_⟩ g, trivial, trivial⟩
  intro k
  show m'.get k = _
  rw [h2, hmap]
  cases c.thresholdPublicMap.get k with
  | none => rfl
  | some p => exact hK.pub p

theorem deserializePubs_bad (K : KeyLib L) : ∀ (l : List (Str × Str)) (m : GoMap Str L.BlsPub), (∃ e ∈ l, K.pubDe e.2 = none) →
    (deserializePubs K m l).2 = false := by
  intro l
  induction l with
  | nil => rintro m ⟨_, h, _⟩; cases h
  | cons a t ih =>
    rintro m ⟨e, he, hn⟩
    unfold deserializePubs
    cases ha : K.pubDe a.2 with
    | none => rfl
    | some p =>
      rcases List.mem_cons.1 he with rfl | he
      · rw [ha] at hn; cases hn
      · exact ih _ ⟨e, he, hn⟩

/-- C71 and C88: a stored configuration with a public key that does not decode is refused, in whatever place the key is, and so is one
whose secret key does not decode, unless it is read for verification only. -/
theorem C71_bad_key_refused (J : ConfJson L) (K : KeyLib L) (file : Str) :
    ((∃ e ∈ (J.dec file).thresholdPublicMap.entries, K.pubDe e.2 = none) →
      (readCrypto J K file).2 = false ∧ (readVerifyOnly J K file).2 = false) ∧
    (K.secDe (J.dec file).thresholdSecretKey = none → (readCrypto J K file).2 = false) := by
  refine ⟨fun h => ?_, fun h => ?_⟩
  · have := deserializePubs_bad K _ .empty h
    simp [readCrypto, newCryptoConfig, readVerifyOnly, newVerifyOnly, this]
  · simp only [readCrypto, newCryptoConfig, h]
    split <;> rfl

/-- A basic configuration (unused by the code) verifies no threshold signature and no fragment. -/
theorem C88_basic_rejects (J : ConfJson L) (K : KeyLib L) (file : Str) (g : GossipObj)
    (ht : g.type ∈ [.STH_FRAG, .REV_FRAG, .ACC_FRAG, .STH_FULL, .REV_FULL, .ACC_FULL]) :
    g.verify (readBasic J K file) ≠ .ok := by
  have h2 : ∀ m t, (readBasic J K file).thresholdVerify m t = .err .scheme := fun _ _ => rfl
  have h3 : ∀ m f, (readBasic J K file).fragmentVerify m f = .err .scheme := fun _ _ => rfl
  simp only [List.mem_cons, List.not_mem_nil, or_false] at ht
  rcases ht with h | h | h | h | h | h <;> rw [GossipObj.verify, h] <;>
    simp only [verifyPayloadFrag, verifyPayloadThreshold, h2, h3] <;> split <;> simp

/-- The basic form of a saved configuration (unused by the code) signs as its owner does, under the same id, and gives the same verdict
on plain signatures. -/
theorem C88_basic_signs (J : ConfJson L) (hJ : J.Laws) (K : KeyLib L) (c : CryptoConfig L) (hc : (newStored K c).Writable) :
    let r := readBasic J K (saveCrypto J K c)
    r.selfID = c.selfID ∧ (∀ msg, r.sign msg = c.sign msg) ∧ (∀ msg sig, r.verify msg sig = c.verify msg sig) ∧
      r.thresholdSecretKey = K.blsZeroSec := by
  have hs := hJ _ hc
  have h0 : (J.dec (J.enc (newStored K c))).selfID = c.selfID := hs.selfID
  have h1 : (J.dec (J.enc (newStored K c))).signScheme = c.signScheme := hs.signScheme
  have h2 : (J.dec (J.enc (newStored K c))).signSecretKey = c.signSecretKey := hs.signSecretKey
  refine ⟨h0, fun msg => ?_, fun msg sig => ?_, rfl⟩
  · simp only [readBasic, newBasic, saveCrypto, CryptoConfig.sign, h0, h1, h2]
  · have h3 : ∀ i, (J.dec (J.enc (newStored K c))).signPublicMap.get i = c.signPublicMap.get i := hs.signPublicMap
    simp only [readBasic, newBasic, saveCrypto, CryptoConfig.verify, h1, h3]

/-! ### C87: generated keys -/

theorem assignAll_zip_get {V W : Type} (f : V → W) (l : List (Str × V)) (k : Str) :
    ((GoMap.empty : GoMap Str W).assignAll (l.map fun e => (e.1, f e.2))).get k =
      (((GoMap.empty : GoMap Str V).assignAll l).get k).map f := by
  have key : ∀ (l : List (Str × V)) (m : GoMap Str V) (m' : GoMap Str W), (∀ k, m'.get k = (m.get k).map f) →
      ∀ k, (m'.assignAll (l.map fun e => (e.1, f e.2))).get k = ((m.assignAll l).get k).map f := by
    intro l
    induction l with
    | nil => intro m m' h k; exact h k
    | cons e t ih =>
      intro m m' h k
      refine ih (m.set e.1 e.2) (m'.set e.1 (f e.2)) (fun k' => ?_) k
      rw [GoMap.get_set, GoMap.get_set]
      split
      · rfl
      · exact h k'
  exact key l .empty .empty (fun _ => rfl) k

theorem assignAll_mem {V : Type} (l : List (Str × V)) (k : Str) (h : k ∈ l.map (·.1)) :
    ∃ v, ((GoMap.empty : GoMap Str V).assignAll l).get k = some v := by
  have key : ∀ (l : List (Str × V)) (m : GoMap Str V), (k ∈ l.map (·.1) ∨ ∃ v, m.get k = some v) →
      ∃ v, (m.assignAll l).get k = some v := by
    intro l
    induction l with
    | nil => intro m h; simpa [GoMap.assignAll] using h
    | cons e t ih =>
      intro m h
      refine ih (m.set e.1 e.2) ?_
      by_cases hk : k = e.1
      · right; exact ⟨e.2, by rw [hk, GoMap.get_set_self]⟩
      · rcases h with h | ⟨v, h⟩
        · simp only [List.map_cons, List.mem_cons, hk, false_or] at h
          exact .inl h
        · right; exact ⟨v, by rw [GoMap.get_set, if_neg hk]; exact h⟩
  exact key l .empty (.inl h)

/-- The generated RSA keys: every listed entity has a key pair and its public key is registered. (Also for a list with
repetitions.) -/
theorem rsaGen_get (K : KeyLib L) (es : List Str) (e : Str) (he : e ∈ es) :
    ∃ k, (rsaGen K es).2.get e = some k ∧ (rsaGen K es).1.get e = some (K.rsaPub k) := by
  obtain ⟨k, hk⟩ := assignAll_mem (es.zipIdx.map fun e => (e.1, K.rsaRand e.2)) e (by
    rw [List.map_map]
    have e1 : ((fun e : Str × L.RsaPriv => e.1) ∘ fun e : Str × Nat => (e.1, K.rsaRand e.2)) = Prod.fst := rfl
    rw [e1, List.zipIdx_map_fst]; exact he)
  refine ⟨k, hk, ?_⟩
  have := assignAll_zip_get K.rsaPub (es.zipIdx.map fun e => (e.1, K.rsaRand e.2)) e
  rw [hk] at this
  exact this

theorem thresholdKeys_get (K : KeyLib L) (es : List Str) (t : Nat) (ht : 2 ≤ t) (hid : ∀ e ∈ es, K.blsIdOk e = true) :
    ∃ pubs privs, generateThresholdKeypairs K es t = .ok pubs privs ∧
      (∀ k, pubs.get k = (privs.get k).map K.blsPub) ∧ ∀ e ∈ es, ∃ s, privs.get e = some s := by
  have hall : es.all K.blsIdOk = true := List.all_eq_true.2 hid
  refine ⟨_, _, by unfold generateThresholdKeypairs; rw [if_neg (by omega), if_pos hall], ?_, ?_⟩
  · intro k; exact assignAll_zip_get K.blsPub _ k
  · intro e he
    refine assignAll_mem _ e ?_
    rw [List.map_map]
    have e1 : ((fun e : Str × L.BlsSec => e.1) ∘ fun e : Str × Nat => (e.1, blsSecretAt K t e.2 e.1)) = Prod.fst := rfl
    rw [e1, List.zipIdx_map_fst]; exact he

/-- `b` can check what `a` signs: the key registered at `b` for `a` is the public part of `a`'s secret. -/
structure Trusts (K : KeyLib L) (b a : CryptoConfig L) : Prop where
  scheme : b.signScheme = go!"rsa" ∧ a.signScheme = go!"rsa"
  rsa : b.signPublicMap.get a.selfID = some (K.rsaPub a.signSecretKey)

/-- The same for signature fragments. -/
structure TrustsFrag (K : KeyLib L) (b a : CryptoConfig L) : Prop where
  scheme : b.thresholdScheme = go!"bls" ∧ a.thresholdScheme = go!"bls"
  bls : b.thresholdPublicMap.get a.selfID = some (K.blsPub a.thresholdSecretKey)

theorem trusts_verify (K : KeyLib L) (laws : L.RsaLaws K.rsaPub) {a b : CryptoConfig L} (h : Trusts K b a) (msg : Str)
    (sig : RSASig) (hs : a.sign msg = some sig) : b.verify msg sig = .ok := by
  unfold CryptoConfig.sign at hs
  rw [if_pos h.scheme.2] at hs
  unfold rsaSignMsg at hs
  cases hd : L.rsaSign a.signSecretKey (L.sha256 msg) with
  | none => rw [hd] at hs; cases hs
  | some bytes =>
    rw [hd] at hs
    cases hs
    unfold CryptoConfig.verify rsaVerifyMsg
    rw [if_pos h.scheme.1]
    simp only [h.rsa, laws.complete _ _ _ hd]

theorem trustsFrag_verify (K : KeyLib L) (laws : L.BlsLaws K.blsPub) {a b : CryptoConfig L} (h : TrustsFrag K b a) (msg : Str) :
    b.fragmentVerify msg (a.thresholdSign msg).1 = .ok := by
  unfold CryptoConfig.fragmentVerify CryptoConfig.thresholdSign SigFragment.verify
  rw [if_pos h.scheme.1, if_pos h.scheme.2]
  simp only [h.bls, Option.getD_some, laws.complete]

/-- C87 for `GenerateEntityCryptoConfigs`: what one of the generated configurations signs, every other one accepts, for plain
signatures and for fragments. -/
theorem C87_entities_interoperate (K : KeyLib L) (rsa : L.RsaLaws K.rsaPub) (bls : L.BlsLaws K.blsPub) (es : List Str) (t : Nat)
    (ht : 2 ≤ t) (hid : ∀ e ∈ es, K.blsIdOk e = true) :
    ∃ cs, generateEntityConfigs K es t = some cs ∧ cs.map (·.selfID) = es ∧ (∀ a ∈ cs, a.threshold = t ∧ a.n = es.length) ∧
      ∀ a ∈ cs, ∀ b ∈ cs, (∀ msg sig, a.sign msg = some sig → b.verify msg sig = .ok) ∧
        ∀ msg, b.fragmentVerify msg (a.thresholdSign msg).1 = .ok := by
  obtain ⟨pubs, privs, h1, h2, h3⟩ := thresholdKeys_get K es t ht hid
  unfold generateEntityConfigs
  rw [h1]
  refine ⟨_, rfl, by rw [List.map_map]; exact List.map_id' es, fun a ha => ?_, ?_⟩
  · obtain ⟨e, _, rfl⟩ := List.mem_map.1 ha
    exact ⟨rfl, rfl⟩
  intro a ha b hb
  obtain ⟨ea, hea, rfl⟩ := List.mem_map.1 ha
  obtain ⟨eb, heb, rfl⟩ := List.mem_map.1 hb
  obtain ⟨k, hk1, hk2⟩ := rsaGen_get K es ea hea
  obtain ⟨s, hs⟩ := h3 ea hea
  constructor
  · intro msg sig
    refine trusts_verify K rsa ⟨⟨rfl, rfl⟩, ?_⟩ msg sig
    show (rsaGen K es).1.get ea = some (K.rsaPub (((rsaGen K es).2.get ea).getD K.rsaZero))
    rw [hk1, hk2]; rfl
  · intro msg
    refine trustsFrag_verify K bls ⟨⟨rfl, rfl⟩, ?_⟩ msg
    simp only [h2, hs, Option.map_some, Option.getD_some]

/-! ### C104: whose keys they are -/

theorem generated_keys (K : KeyLib L) (es : List Str) (hn : es.Nodup) (t : Nat) (cs : List (CryptoConfig L))
    (h : generateEntityConfigs K es t = some cs) (i : Nat) (c : CryptoConfig L) (hc : cs[i]? = some c) :
    es[i]? = some c.selfID ∧ c.signSecretKey = K.rsaRand i ∧ c.thresholdSecretKey = blsSecretAt K t i c.selfID := by
  unfold generateEntityConfigs generateThresholdKeypairs at h
  split at h
  · rename_i pubs privs hg
    split at hg
    · cases hg
    · split at hg
      · cases hg
        cases h
        rw [List.getElem?_map] at hc
        obtain ⟨e, he, rfl⟩ := Option.map_eq_some_iff.1 hc
        have hz : (e, i) ∈ es.zipIdx := by
          rw [List.mem_iff_getElem?]
          exact ⟨i, by rw [List.getElem?_zipIdx, he]; simp⟩
        have hk : ∀ {V : Type} (f : Str × Nat → V), ((es.zipIdx.map fun e => (e.1, f e)).map (·.1)).Nodup := by
          intro V f
          rw [List.map_map]
          have e1 : ((fun e : Str × V => e.1) ∘ fun e : Str × Nat => (e.1, f e)) = Prod.fst := rfl
          rw [e1, List.zipIdx_map_fst]
          exact hn
        refine ⟨he, ?_, ?_⟩
        · show ((rsaGen K es).2.get e).getD K.rsaZero = _
          unfold rsaGen
          dsimp only
          rw [(assignAll_get _ (hk fun e => K.rsaRand e.2) e (K.rsaRand i)).2 (List.mem_map.2 ⟨_, hz, rfl⟩)]
          rfl
        · dsimp only
          rw [(assignAll_get _ (hk fun e => blsSecretAt K t e.2 e.1) e (blsSecretAt K t i e)).2 (List.mem_map.2 ⟨_, hz, rfl⟩)]
          rfl
      · cases hg
  · cases h

/-- C104, for signing keys and for the threshold keys of the first `t` entities: if the random generator does not repeat, no
two entities have the same secret key. Missing: the threshold keys of the others (next theorem). -/
theorem C104_own_keys_partial (K : KeyLib L) (es : List Str) (hn : es.Nodup) (t : Nat) (cs : List (CryptoConfig L))
    (h : generateEntityConfigs K es t = some cs) (i j : Nat) (hij : i ≠ j) (a b : CryptoConfig L) (ha : cs[i]? = some a)
    (hb : cs[j]? = some b) :
    ((∀ n m, n ≠ m → K.rsaRand n ≠ K.rsaRand m) → a.signSecretKey ≠ b.signSecretKey) ∧
    ((∀ n m, n ≠ m → K.blsRand n ≠ K.blsRand m) → i < t → j < t → a.thresholdSecretKey ≠ b.thresholdSecretKey) := by
  obtain ⟨_, a1, a2⟩ := generated_keys K es hn t cs h i a ha
  obtain ⟨_, b1, b2⟩ := generated_keys K es hn t cs h j b hb
  constructor
  · intro hr
    rw [a1, b1]
    exact hr i j hij
  · intro hr hi hj
    rw [a2, b2, blsSecretAt, blsSecretAt, if_pos hi, if_pos hj]
    exact hr i j hij

/-- C104 is false: the threshold keys of the first `t` entities together determine those of all others, so that these `t`
entities can make every fragment of everyone. -/
theorem C104_violated_coalition (K : KeyLib L) (es : List Str) (hn : es.Nodup) (t : Nat) (cs : List (CryptoConfig L))
    (h : generateEntityConfigs K es t = some cs) (i : Nat) (hi : t ≤ i) (c : CryptoConfig L) (hc : cs[i]? = some c) (msg : Str) :
    c.thresholdSecretKey = K.blsShare ((cs.take t).map (·.thresholdSecretKey)) c.selfID ∧
    (c.thresholdSign msg).1 = ⟨some (L.blsSign (K.blsShare ((cs.take t).map (·.thresholdSecretKey)) c.selfID) msg), c.selfID⟩ := by
  obtain ⟨_, _, c2⟩ := generated_keys K es hn t cs h i c hc
  have hlen : i < cs.length := (List.getElem?_eq_some_iff.1 hc).1
  have hm : (cs.take t).map (·.thresholdSecretKey) = (List.range t).map K.blsRand := by
    apply List.ext_getElem?
    intro j
    rw [List.getElem?_map, List.getElem?_map]
    by_cases hj : j < t
    · have hjl : j < cs.length := by omega
      rw [List.getElem?_take_of_lt hj, List.getElem?_eq_getElem hjl, List.getElem?_range hj]
      obtain ⟨_, _, x⟩ := generated_keys K es hn t cs h j cs[j] (List.getElem?_eq_getElem hjl)
      simp only [Option.map_some, x, blsSecretAt, if_pos hj]
    · rw [List.getElem?_eq_none (by rw [List.length_take]; omega), List.getElem?_eq_none (by rw [List.length_range]; omega)]
      rfl
  have e : c.thresholdSecretKey = K.blsShare ((cs.take t).map (·.thresholdSecretKey)) c.selfID := by
    rw [hm, c2, blsSecretAt, if_neg (by omega)]
  refine ⟨e, ?_⟩
  rw [← e]
  have hs : c.thresholdScheme = go!"bls" := by
    unfold generateEntityConfigs at h
    split at h
    · cases h
      rw [List.getElem?_map] at hc
      obtain ⟨x, _, rfl⟩ := Option.map_eq_some_iff.1 hc
      rfl
    · cases h
  unfold CryptoConfig.thresholdSign
  rw [if_pos hs]

/-! ### Concrete cases -/

namespace Ref

/-- A key library over `Ref.lib`. -/
def keys : KeyLib lib where
  rsaZero := []
  blsZeroSec := []
  pubSer p := match p with
    | none => []
    | some k => 1 :: k
  pubDe s := match s with
    | [] => some none
    | c :: t => if c = 1 then some (some t) else none
  secSer k := 2 :: k
  secDe s := match s with
    | [] => none
    | c :: t => if c = 2 then some t else none
  rsaPub := rsaPub
  blsPub := blsPub
  rsaRand n := go!"rsa" ++ itoa n
  blsRand n := go!"bls" ++ itoa n
  blsShare _ id := go!"share" ++ id
  blsIdOk id := id.length ≤ 32

theorem keyLaws : KeyLaws keys where
  pub p := by cases p <;> rfl
  sec s := rfl

open Codec in
def cGoMap : Codec (GoMap Str Str) :=
  (list (pair str str)).iso (fun m => m.entries) (fun l => if h : (l.map Prod.fst).Nodup then ⟨l, h⟩ else .empty)
    (fun m => by simp only [m.nodup, dif_pos])

open Codec in
def cInt : Codec Int := (pair bool nat).iso (fun i => (decide (i < 0), i.natAbs)) (fun x => if x.1 then -(x.2 : Int) else x.2)
  (fun i => by by_cases h : i < 0 <;> simp [h] <;> omega)

open Codec in
def cStored : Codec (StoredConfig lib) :=
  (pair (pair (pair cInt cInt) (pair nat (pair str str))) (pair (pair str (pair cGoMap str)) (pair cGoMap str))).iso
    (fun s => (((s.threshold, s.n), (s.hashScheme, (s.signScheme, s.thresholdScheme))),
      ((s.selfID, (s.signPublicMap, s.signSecretKey)), (s.thresholdPublicMap, s.thresholdSecretKey))))
    (fun x => ⟨x.1.1.1, x.1.1.2, x.1.2.1, x.1.2.2.1, x.1.2.2.2, x.2.1.1, x.2.1.2.1, x.2.1.2.2, x.2.2.1, x.2.2.2⟩)
    (fun _ => rfl)

def confJson : ConfJson lib where
  enc := cStored.enc
  dec s := (cStored.decode s).getD ⟨0, 0, 0, [], [], [], .empty, [], .empty, []⟩

theorem confJson_laws : confJson.Laws := by
  intro s _
  have : confJson.dec (confJson.enc s) = s := by simp [confJson, Codec.decode_enc]
  rw [this]
  exact ⟨rfl, rfl, rfl, rfl, rfl, rfl, fun _ => rfl, rfl, fun _ => rfl, rfl⟩

/-- C71, C87, C88: three generated entities; the second one's configuration is saved and read back. -/
def gen3 : List (CryptoConfig lib) := (generateEntityConfigs keys [go!"G1", go!"G2", go!"G3"] 2).getD []

example : gen3.map (fun c => (c.selfID, (c.signSecretKey : Str), (c.thresholdSecretKey : Str))) =
    [(go!"G1", go!"rsa0", go!"bls0"), (go!"G2", go!"rsa1", go!"bls1"), (go!"G3", go!"rsa2", go!"shareG3")] := by decide +kernel

def shown (r : CryptoConfig lib × Bool) : Bool × Str × Str × Option (Option Str) :=
  (r.2, r.1.selfID, r.1.thresholdSecretKey, r.1.thresholdPublicMap.get (go!"G3"))

example : gen3.map (fun c => shown (readCrypto confJson keys (saveCrypto confJson keys c))) =
    [(true, go!"G1", go!"bls0", some (some (go!"shareG3"))), (true, go!"G2", go!"bls1", some (some (go!"shareG3"))),
      (true, go!"G3", go!"shareG3", some (some (go!"shareG3")))] := by decide +kernel

example : (gen3.map fun a => gen3.map fun b => decide (b.fragmentVerify (go!"m") (a.thresholdSign (go!"m")).1 = .ok)) =
    List.replicate 3 (List.replicate 3 true) := by decide +kernel

/-- C104: three entities with threshold 2; the third key is the share. -/
example : generateEntityConfigs keys [go!"G1", go!"G2", go!"G3"] 2 = some gen3 ∧ [go!"G1", go!"G2", go!"G3"].Nodup ∧
    gen3.length = 3 ∧ (∀ n m, n ≠ m → keys.rsaRand n ≠ keys.rsaRand m) := by
  refine ⟨?_, by decide, by decide +kernel, ?_⟩
  · have : (generateEntityConfigs keys [go!"G1", go!"G2", go!"G3"] 2).isSome = true := by decide +kernel
    obtain ⟨v, hv⟩ := Option.isSome_iff_exists.1 this
    rw [gen3, hv]; rfl
  · intro n m hne e
    exact hne (itoa_inj (List.append_cancel_left e))

example : ∃ cs, generateEntityConfigs keys [go!"G1", go!"G2", go!"G3"] 2 = some cs ∧ ∀ a ∈ cs, ∀ b ∈ cs,
    ∀ msg, b.fragmentVerify msg (a.thresholdSign msg).1 = .ok := by
  obtain ⟨cs, h1, _, _, h2⟩ := C87_entities_interoperate keys rsaLaws blsLaws [go!"G1", go!"G2", go!"G3"] 2 (by omega) (by decide)
  exact ⟨cs, h1, fun a ha b hb => (h2 a ha b hb).2⟩

/-- A stored configuration whose second public key does not decode. -/
def badKey : StoredConfig lib :=
  { newStored keys ((gen3[0]?).getD (conf [])) with thresholdPublicMap := (GoMap.empty.set (go!"G2") [9]).set (go!"G1") [1, 7] }

/-- C71: it is refused. -/
example : (readCrypto confJson keys (confJson.enc badKey)).2 = false ∧ (readVerifyOnly confJson keys (confJson.enc badKey)).2 = false := by
  have e : confJson.dec (confJson.enc badKey) = badKey := by simp [confJson, Codec.decode_enc]
  exact (C71_bad_key_refused confJson keys _).1 (by rw [e]; exact ⟨(go!"G2", [9]), by decide +kernel, rfl⟩)

/-- C88: the basic forms of three saved configurations sign as their owners. -/
example : (gen3.map fun c =>
      let r := readBasic confJson keys (saveCrypto confJson keys c)
      decide (r.selfID = c.selfID ∧ r.sign (go!"m") = c.sign (go!"m"))) = [true, true, true] ∧
    gen3.map (fun c => (c.sign (go!"m")).isSome) = [true, true, true] := by decide +kernel

end Ref
end CTng
