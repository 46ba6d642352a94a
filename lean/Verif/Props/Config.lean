import Verif.Proofs.Config
import Verif.Props.CA
/- C143: how the programs start from their configuration files. -/
set_option autoImplicit false

namespace CTng
open Wire Gen

/-! ### Specification -/

/-- A configuration pointer that can be made out of a file: nil for `null`, a value for a JSON text the value accepts. -/
def LoadsAs {α : Type} (z : α) (d : Dec α) (file : Option Str) (p : Option α) : Prop :=
  ∃ t j, file = some t ∧ Json.parse t = some j ∧
    ((j = .null ∧ p = none) ∨ (j ≠ .null ∧ ∃ a, d z j = (a, true) ∧ p = some a))

/-- A file of which no configuration pointer can be made. -/
def Unloadable {α : Type} (z : α) (d : Dec α) (file : Option Str) : Prop := ∀ p, ¬ LoadsAs z d file p

theorem loadsAs_iff {α : Type} {z : α} {d : Dec α} {file : Option Str} {p : Option α} :
    LoadsAs z d file p ↔ loadConf z d file = .running p := (loadConf_running z d file p).symm

theorem unloadable_iff {α : Type} {z : α} {d : Dec α} {file : Option Str} :
    Unloadable z d file ↔ loadConf z d file = .fatal := by
  constructor
  · intro h
    cases hl : loadConf z d file with
    | fatal => rfl
    | panic => exact absurd hl (loadConf_no_panic _ _ _)
    | running p => exact absurd (loadsAs_iff.2 hl) (h p)
  · intro h p hp
    rw [loadsAs_iff.1 hp] at h
    cases h

section
variable {L : Lib} (F : RsaForm L) (K : KeyLib L)

/-- The crypto configuration a file gives: nothing for a missing file, otherwise what could be decoded. -/
def CryptoFrom (file : Option Str) (c : Option (CryptoConfig L)) : Prop :=
  match file with
  | none => c = none
  | some t => c = some (newCryptoConfig K (unmarshal (storedZero F) (dStored F) t).1).1

theorem cryptoFrom_read (file : Option Str) (c : Option (CryptoConfig L)) :
    CryptoFrom F K file c ↔ c = (readCryptoFile F K file).1 := by
  cases file <;> exact Iff.rfl

/-! ### C143: starting -/

/-- C143, what holds: a gossiper and a monitor run with exactly the configurations their files give, and end if the private or
the public file gives none; the crypto file decides nothing. -/
theorem C143_gossiper_monitor_start_partial (f : Texts) :
    (∀ ctx, startGossiper F K f = .running ctx ↔
      LoadsAs gosPubZero dGosPub f.pub ctx.pub ∧ LoadsAs gosPrivZero dGosPriv f.priv ctx.priv ∧ CryptoFrom F K f.crypto ctx.crypto) ∧
    (startGossiper F K f = .fatal ↔ Unloadable gosPubZero dGosPub f.pub ∨ Unloadable gosPrivZero dGosPriv f.priv) ∧
    (∀ ctx, startMonitor F K f = .running ctx ↔
      LoadsAs monPubZero dMonPub f.pub ctx.pub ∧ LoadsAs monPrivZero dMonPriv f.priv ctx.priv ∧ CryptoFrom F K f.crypto ctx.crypto) ∧
    (startMonitor F K f = .fatal ↔ Unloadable monPubZero dMonPub f.pub ∨ Unloadable monPrivZero dMonPriv f.priv) ∧
    startGossiper F K f ≠ .panic ∧ startMonitor F K f ≠ .panic := by
  simp only [loadsAs_iff, unloadable_iff, cryptoFrom_read]
  have h1 := loadConf_no_panic gosPrivZero dGosPriv f.priv
  have h2 := loadConf_no_panic gosPubZero dGosPub f.pub
  have h3 := loadConf_no_panic monPrivZero dMonPriv f.priv
  have h4 := loadConf_no_panic monPubZero dMonPub f.pub
  refine ⟨?_, ?_, ?_, ?_, ?_, ?_⟩
  · rintro ⟨pub, priv, crypto⟩
    unfold startGossiper
    cases hp : loadConf gosPrivZero dGosPriv f.priv with
    | fatal => simp
    | panic => exact absurd hp h1
    | running p =>
      cases hq : loadConf gosPubZero dGosPub f.pub with
      | fatal => simp
      | panic => exact absurd hq h2
      | running q => simp [eq_comm, and_comm]
  · unfold startGossiper
    cases hp : loadConf gosPrivZero dGosPriv f.priv with
    | fatal => simp
    | panic => exact absurd hp h1
    | running p =>
      cases hq : loadConf gosPubZero dGosPub f.pub with
      | fatal => simp
      | panic => exact absurd hq h2
      | running q => simp
  · rintro ⟨pub, priv, crypto⟩
    unfold startMonitor
    cases hp : loadConf monPrivZero dMonPriv f.priv with
    | fatal => simp
    | panic => exact absurd hp h3
    | running p =>
      cases hq : loadConf monPubZero dMonPub f.pub with
      | fatal => simp
      | panic => exact absurd hq h4
      | running q => simp [eq_comm, and_comm]
  · unfold startMonitor
    cases hp : loadConf monPrivZero dMonPriv f.priv with
    | fatal => simp
    | panic => exact absurd hp h3
    | running p =>
      cases hq : loadConf monPubZero dMonPub f.pub with
      | fatal => simp
      | panic => exact absurd hq h4
      | running q => simp
  · unfold startGossiper
    cases hp : loadConf gosPrivZero dGosPriv f.priv with
    | fatal => simp
    | panic => exact absurd hp h1
    | running p =>
      cases hq : loadConf gosPubZero dGosPub f.pub with
      | fatal => simp
      | panic => exact absurd hq h2
      | running q => simp
  · unfold startMonitor
    cases hp : loadConf monPrivZero dMonPriv f.priv with
    | fatal => simp
    | panic => exact absurd hp h3
    | running p =>
      cases hq : loadConf monPubZero dMonPub f.pub with
      | fatal => simp
      | panic => exact absurd hq h4
      | running q => simp

/-- C143, what holds: a logger needs all three files and runs with exactly what they give. A CA needs them too, and a private
configuration that is not `null`. -/
theorem C143_logger_ca_start_partial (f : Texts) :
    (∀ ctx, startLogger F K f = .running ctx ↔
      LoadsAs pubConfZero dPubConf f.pub ctx.pub ∧ LoadsAs logPrivZero dLogPriv f.priv ctx.priv ∧
        CryptoFrom F K f.crypto ctx.crypto ∧ f.crypto ≠ none) ∧
    (startLogger F K f = .fatal ↔ Unloadable pubConfZero dPubConf f.pub ∨ Unloadable logPrivZero dLogPriv f.priv) ∧
    (∀ ctx, startCA F K f = .running ctx ↔
      LoadsAs pubConfZero dPubConf f.pub ctx.pub ∧ LoadsAs caPrivZero dCAPriv f.priv ctx.priv ∧
        CryptoFrom F K f.crypto ctx.crypto ∧ f.crypto ≠ none ∧ ctx.priv ≠ none) ∧
    (startCA F K f = .fatal ↔ Unloadable pubConfZero dPubConf f.pub ∨ Unloadable caPrivZero dCAPriv f.priv) := by
  simp only [loadsAs_iff, unloadable_iff, cryptoFrom_read]
  have h1 := loadConf_no_panic logPrivZero dLogPriv f.priv
  have h2 := loadConf_no_panic pubConfZero dPubConf f.pub
  have h3 := loadConf_no_panic caPrivZero dCAPriv f.priv
  refine ⟨?_, ?_, ?_, ?_⟩
  · rintro ⟨pub, priv, crypto⟩
    unfold startLogger
    cases hq : loadConf pubConfZero dPubConf f.pub with
    | fatal => simp
    | panic => exact absurd hq h2
    | running q =>
      cases hp : loadConf logPrivZero dLogPriv f.priv with
      | fatal => simp
      | panic => exact absurd hp h1
      | running p => cases hc : f.crypto <;> simp [readCryptoFile, eq_comm]
  · unfold startLogger
    cases hq : loadConf pubConfZero dPubConf f.pub with
    | fatal => simp
    | panic => exact absurd hq h2
    | running q =>
      cases hp : loadConf logPrivZero dLogPriv f.priv with
      | fatal => simp
      | panic => exact absurd hp h1
      | running p => cases hc : f.crypto <;> simp [readCryptoFile]
  · rintro ⟨pub, priv, crypto⟩
    unfold startCA
    cases hq : loadConf pubConfZero dPubConf f.pub with
    | fatal => simp
    | panic => exact absurd hq h2
    | running q =>
      cases hp : loadConf caPrivZero dCAPriv f.priv with
      | fatal => simp
      | panic => exact absurd hp h3
      | running p =>
        cases hc : f.crypto <;> cases p <;> simp [readCryptoFile, eq_comm]
        · rintro _ rfl _
          rfl
        · rintro _ rfl _
          simp
  · unfold startCA
    cases hq : loadConf pubConfZero dPubConf f.pub with
    | fatal => simp
    | panic => exact absurd hq h2
    | running q =>
      cases hp : loadConf caPrivZero dCAPriv f.priv with
      | fatal => simp
      | panic => exact absurd hp h3
      | running p => cases hc : f.crypto <;> cases p <;> simp [readCryptoFile]

/-- C143 fails: without a crypto file a gossiper and a monitor run, with a nil crypto configuration. -/
theorem C143_violated_no_crypto_file (pub priv : Option Str) :
    (∀ p q, LoadsAs gosPubZero dGosPub pub p → LoadsAs gosPrivZero dGosPriv priv q →
      startGossiper F K ⟨pub, priv, none⟩ = .running ⟨p, q, none⟩) ∧
    ∀ p q, LoadsAs monPubZero dMonPub pub p → LoadsAs monPrivZero dMonPriv priv q →
      startMonitor F K ⟨pub, priv, none⟩ = .running ⟨p, q, none⟩ := by
  obtain ⟨h1, _, h2, _⟩ := C143_gossiper_monitor_start_partial F K ⟨pub, priv, none⟩
  exact ⟨fun p q hp hq => (h1 _).2 ⟨hp, hq, rfl⟩, fun p q hp hq => (h2 _).2 ⟨hp, hq, rfl⟩⟩

/-- The configuration that is left when nothing could be decoded. -/
def emptyCrypto : CryptoConfig L := (newCryptoConfig K (storedZero F)).1

theorem emptyCrypto_schemes : (emptyCrypto F K).signScheme = [] ∧ (emptyCrypto F K).thresholdScheme = [] ∧
    (emptyCrypto F K).selfID = [] := by
  obtain ⟨_, _, _, _, h4, h5, h6, _⟩ := newCryptoConfig_fields K (storedZero F) (by intro k v h; cases h)
  exact ⟨h4, h5, h6⟩

/-- Without schemes nothing is signed and nothing is accepted. -/
theorem useless_of_schemes {c : CryptoConfig L} (h1 : c.signScheme = []) (h2 : c.thresholdScheme = []) :
    (∀ g : GossipObj, g.verify c ≠ .ok) ∧ (∀ msg, c.sign msg = none) ∧ ∀ msg, (c.thresholdSign msg).2 = false := by
  have hv : ∀ m s, c.verify m s = .err .scheme := by
    intro m s
    unfold CryptoConfig.verify
    rw [h1]
    rfl
  have ht : ∀ m t, c.thresholdVerify m t = .err .scheme := by
    intro m t
    unfold CryptoConfig.thresholdVerify
    rw [h2]
    rfl
  have hf : ∀ m t, c.fragmentVerify m t = .err .scheme := by
    intro m t
    unfold CryptoConfig.fragmentVerify
    rw [h2]
    rfl
  refine ⟨?_, ?_, ?_⟩
  · intro g
    unfold GossipObj.verify
    cases g.type <;> simp only [verifyRSAPayload, verifyCON, verifyPayloadFrag, verifyPayloadThreshold, hv, ht, hf] <;>
      (try split) <;> (try split) <;> simp
  · intro msg
    unfold CryptoConfig.sign
    rw [h1]
    rfl
  · intro msg
    unfold CryptoConfig.thresholdSign
    rw [h2]
    rfl

/-- C143 fails: with a crypto file that is not JSON at all the gossiper, the monitor, the logger and the client run, with a
configuration that has no name, signs nothing and accepts nothing. -/
theorem C143_violated_broken_crypto_file (pub priv : Option Str) (t : Str) (ht : Json.parse t = none) :
    (∀ p q, LoadsAs gosPubZero dGosPub pub p → LoadsAs gosPrivZero dGosPriv priv q →
      startGossiper F K ⟨pub, priv, some t⟩ = .running ⟨p, q, some (emptyCrypto F K)⟩) ∧
    (∀ p q, LoadsAs monPubZero dMonPub pub p → LoadsAs monPrivZero dMonPriv priv q →
      startMonitor F K ⟨pub, priv, some t⟩ = .running ⟨p, q, some (emptyCrypto F K)⟩) ∧
    (∀ p q, LoadsAs pubConfZero dPubConf pub p → LoadsAs logPrivZero dLogPriv priv q →
      startLogger F K ⟨pub, priv, some t⟩ = .running ⟨p, q, some (emptyCrypto F K)⟩) ∧
    (∀ z c file, unmarshal z dClient file = (c, true) →
      ∃ cc, startClient F K (some z) (some file) (some t) = .running (c, cc) ∧ ∀ g : GossipObj, g.verify cc ≠ .ok) ∧
    (emptyCrypto F K).selfID = [] ∧ (∀ g : GossipObj, g.verify (emptyCrypto F K) ≠ .ok) ∧
    (∀ msg, (emptyCrypto F K).sign msg = none) ∧ ∀ msg, ((emptyCrypto F K).thresholdSign msg).2 = false := by
  have hc : CryptoFrom F K (some t) (some (emptyCrypto F K)) := by
    simp only [CryptoFrom, unmarshal, ht, emptyCrypto]
  obtain ⟨h1, _, h2, _⟩ := C143_gossiper_monitor_start_partial F K ⟨pub, priv, some t⟩
  obtain ⟨h3, _⟩ := C143_logger_ca_start_partial F K ⟨pub, priv, some t⟩
  obtain ⟨e1, e2, e3⟩ := emptyCrypto_schemes F K
  obtain ⟨u1, u2, u3⟩ := useless_of_schemes e1 e2
  refine ⟨fun p q hp hq => (h1 _).2 ⟨hp, hq, hc⟩, fun p q hp hq => (h2 _).2 ⟨hp, hq, hc⟩,
    fun p q hp hq => (h3 _).2 ⟨hp, hq, hc, by simp⟩, ?_, e3, u1, u2, u3⟩
  intro z c file hf
  refine ⟨(newVerifyOnly K (storedZero F)).1, ?_, (useless_of_schemes rfl rfl).1⟩
  have : (confJson F).dec t = storedZero F := by
    show (unmarshal (storedZero F) (dStored F) t).1 = _
    simp only [unmarshal, ht]
  simp only [startClient, hf, if_true, readVerifyFile, readVerifyOnly, this]
  rfl

/-- C143 fails: files with the text `null` are accepted; the gossiper, the monitor and the logger run with nil
configurations. -/
theorem C143_violated_null_files (t : Str) :
    startGossiper F K ⟨some (go!"null"), some (go!"null"), some t⟩ = .running ⟨none, none, (readCryptoFile F K (some t)).1⟩ ∧
    startMonitor F K ⟨some (go!"null"), some (go!"null"), some t⟩ = .running ⟨none, none, (readCryptoFile F K (some t)).1⟩ ∧
    startLogger F K ⟨some (go!"null"), some (go!"null"), some t⟩ = .running ⟨none, none, (readCryptoFile F K (some t)).1⟩ := by
  have hn : Json.parse (go!"null") = some .null := by rfl
  have hl : ∀ {α : Type} (z : α) (d : Dec α), LoadsAs z d (some (go!"null")) none := fun z d => ⟨_, _, rfl, hn, .inl ⟨rfl, rfl⟩⟩
  obtain ⟨h1, _, h2, _⟩ := C143_gossiper_monitor_start_partial F K ⟨some (go!"null"), some (go!"null"), some t⟩
  obtain ⟨h3, _⟩ := C143_logger_ca_start_partial F K ⟨some (go!"null"), some (go!"null"), some t⟩
  exact ⟨(h1 _).2 ⟨hl _ _, hl _ _, rfl⟩, (h2 _).2 ⟨hl _ _, hl _ _, rfl⟩, (h3 _).2 ⟨hl _ _, hl _ _, rfl, by simp⟩⟩

/-- Members of a JSON object none of which names one of the fields, whatever the case of its letters. -/
def Unrelated (names : List Str) (l : List (Str × Json)) : Prop := ∀ m ∈ l, ∀ n ∈ names, foldKey n ≠ foldKey m.1

theorem dStruct_unrelated {α : Type} (names : List Str) (set : Nat → Dec α) (z : α) (l : List (Str × Json))
    (h : Unrelated names l) : dStruct names set z (.obj l) = (z, true) := by
  have key : ∀ l : List (Str × Json), Unrelated names l → ∀ acc, l.foldl (dMember names set) acc = acc := by
    intro l
    induction l with
    | nil => intro _ acc; rfl
    | cons m t ih =>
      intro h acc
      have h0 : fieldIndex names m.1 = none := by
        have hm := h m (by simp)
        have e1 : names.findIdx? (· = m.1) = none := by
          rw [List.findIdx?_eq_none_iff]
          intro n hn
          simpa using fun e => hm n hn (by rw [e])
        have e2 : (names.findIdx? fun n => foldKey n = foldKey m.1) = none := by
          rw [List.findIdx?_eq_none_iff]
          intro n hn
          simpa using hm n hn
        unfold fieldIndex
        rw [e1]
        exact e2
      have h1 : dMember names set acc m = acc := by
        unfold dMember
        rw [h0]
      rw [List.foldl_cons, h1]
      exact ih (fun m' hm' => h m' (List.mem_cons_of_mem _ hm')) acc
  exact key l h _

theorem dMapOf_const {V : Type} (z : V) (d : Dec V) (v : V) (l : List (Str × Json)) (h : ∀ e ∈ l, d z e.2 = (v, true)) :
    ∀ (m : GoMap Str V) (a : Str), (a ∈ l.map (·.1) ∨ m.get a = some v) → (dMapOf z d m (.obj l)).1.get a = some v := by
  intro m a ha
  show (l.foldl (fun acc m => let r := d z m.2; (acc.1.set m.1 r.1, acc.2 && r.2)) (m, true)).1.get a = some v
  generalize true = b
  induction l generalizing m b with
  | nil => simpa using ha
  | cons e t ih =>
    rw [List.foldl_cons]
    refine ih (fun e he => h e (List.mem_cons_of_mem _ he)) _ ?_ _
    rw [h e (by simp)]
    by_cases hea : a = e.1
    · exact .inr (by rw [hea, GoMap.get_set_self])
    · rcases ha with ha | ha
      · rw [List.map_cons, List.mem_cons] at ha
        rcases ha with ha | ha
        · exact absurd ha hea
        · exact .inl ha
      · exact .inr (by rw [GoMap.get_set_ne _ _ hea]; exact ha)

/-- C143 fails: a crypto file that lists names with objects that hold no numbers does not keep a gossiper from
running; it has a key without modulus and with exponent 0 for every name. -/
theorem C143_violated_empty_keys (hF : F.Laws) (t : Str) (es : List (Str × List (Str × Json)))
    (ht : Json.parse t = some (.obj [(go!"SignPublicMap", .obj (es.map fun e => (e.1, .obj e.2)))]))
    (hu : ∀ e ∈ es, Unrelated pubNames e.2) (pub priv : Option Str) (p : Option GosPub) (q : Option GossiperPriv)
    (hp : LoadsAs gosPubZero dGosPub pub p) (hq : LoadsAs gosPrivZero dGosPriv priv q) :
    ∃ c, startGossiper F K ⟨pub, priv, some t⟩ = .running ⟨p, q, some c⟩ ∧
      ∀ a ∈ es.map (·.1), ∃ k, c.signPublicMap.get a = some k ∧ (F.pub k).n = none ∧ (F.pub k).e = 0 := by
  refine ⟨_, ((C143_gossiper_monitor_start_partial F K ⟨pub, priv, some t⟩).1 ⟨p, q, _⟩).2 ⟨hp, hq, rfl⟩,
    fun a ha => ⟨F.ofPub ⟨none, 0⟩, ?_, ?_⟩⟩
  · have e : ∀ s : StoredConfig L, (newCryptoConfig K s).1.signPublicMap = s.signPublicMap := by
      intro s
      unfold newCryptoConfig
      dsimp only
      repeat' split
      all_goals rfl
    rw [e]
    have hr : ∀ e ∈ es.map (fun e => (e.1, Json.obj e.2)), dRsaPub F (F.ofPub pubZero) e.2 = (F.ofPub pubZero, true) := by
      intro e he
      obtain ⟨x, hx, rfl⟩ := List.mem_map.1 he
      simp only [dRsaPub, hF.zeroPub, dPub, dStruct_unrelated _ _ _ _ (hu x hx)]
    have hk := dMapOf_const (F.ofPub pubZero) (dRsaPub F) _ _ hr (storedZero F).signPublicMap a
      (.inl (by simpa [List.map_map, Function.comp_def] using ha))
    have hd : (unmarshal (storedZero F) (dStored F) t).1.signPublicMap =
        (dMapOf (F.ofPub pubZero) (dRsaPub F) (storedZero F).signPublicMap (.obj (es.map fun e => (e.1, .obj e.2)))).1 := by
      simp only [unmarshal, ht]
      rfl
    rw [hd]
    exact hk
  · have := hF.zeroPub
    rw [pubZero] at this
    rw [this]
    exact ⟨rfl, rfl⟩
/-- C143 fails: a file that holds some JSON object without any field of the configuration is accepted, and the processes run
with no URLs, no name, no port, and periods of no length. -/
theorem C143_violated_other_object (pub priv crypto : Str) (l m : List (Str × Json)) (hl : Json.parse pub = some (.obj l))
    (hm : Json.parse priv = some (.obj m)) (c : Option (CryptoConfig L)) (hc : CryptoFrom F K (some crypto) c) :
    (Unrelated gosPubNames l → Unrelated gosPrivNames m →
      startGossiper F K ⟨some pub, some priv, some crypto⟩ = .running ⟨some ⟨0, 0, 0, [], []⟩, some ⟨[], [], []⟩, c⟩) ∧
    (Unrelated monPubNames l → Unrelated monPrivNames m →
      startMonitor F K ⟨some pub, some priv, some crypto⟩ =
        .running ⟨some ⟨[], [], 0, 0, 0⟩, some ⟨[], [], [], [], [], []⟩, c⟩) ∧
    (Unrelated pubConfNames l → Unrelated logPrivNames m →
      startLogger F K ⟨some pub, some priv, some crypto⟩ = .running ⟨some ⟨[], [], 0, 0, []⟩, some ⟨[], [], [], [], []⟩, c⟩) ∧
    (Unrelated pubConfNames l → Unrelated caPrivNames m →
      startCA F K ⟨some pub, some priv, some crypto⟩ =
        .running ⟨some ⟨[], [], 0, 0, []⟩, some ⟨[], [], [], [], [], 0⟩, c⟩) := by
  have hp : ∀ {α : Type} (z : α) (names : List Str) (set : Nat → Dec α), Unrelated names l →
      LoadsAs z (dStruct names set) (some pub) (some z) := fun z names set h =>
    ⟨_, _, rfl, hl, .inr ⟨by simp, z, dStruct_unrelated names set z l h, rfl⟩⟩
  have hq : ∀ {α : Type} (z : α) (names : List Str) (set : Nat → Dec α), Unrelated names m →
      LoadsAs z (dStruct names set) (some priv) (some z) := fun z names set h =>
    ⟨_, _, rfl, hm, .inr ⟨by simp, z, dStruct_unrelated names set z m h, rfl⟩⟩
  obtain ⟨h1, _, h2, _⟩ := C143_gossiper_monitor_start_partial F K ⟨some pub, some priv, some crypto⟩
  obtain ⟨h3, _, h4, _⟩ := C143_logger_ca_start_partial F K ⟨some pub, some priv, some crypto⟩
  refine ⟨fun a b => (h1 _).2 ⟨hp _ _ _ a, hq _ _ _ b, hc⟩, fun a b => (h2 _).2 ⟨hp _ _ _ a, hq _ _ _ b, hc⟩,
    fun a b => (h3 _).2 ⟨hp _ _ _ a, hq _ _ _ b, hc, by simp⟩,
    fun a b => (h4 _).2 ⟨hp _ _ _ a, hq _ _ _ b, hc, by simp, by simp⟩⟩

/-- Non-vacuous: an object of another program. -/
example : ∃ l, Json.parse (go!"{\"name\":\"ctng\",\"size\":4}") = some (.obj l) ∧ Unrelated gosPubNames l ∧ Unrelated gosPrivNames l ∧
    Unrelated monPubNames l ∧ Unrelated monPrivNames l ∧ Unrelated pubConfNames l ∧ Unrelated logPrivNames l ∧
    Unrelated caPrivNames l :=
  ⟨[(go!"name", .str (go!"ctng")), (go!"size", .num (go!"4"))], by rfl, by unfold Unrelated; decide +kernel, by unfold Unrelated; decide +kernel,
    by unfold Unrelated; decide +kernel, by unfold Unrelated; decide +kernel, by unfold Unrelated; decide +kernel,
    by unfold Unrelated; decide +kernel, by unfold Unrelated; decide +kernel⟩

/-! ### C143: generated files -/

/-- A configuration written by `SaveCryptoFiles`, as JSON, is read back. -/
theorem C71_config_roundtrip_json {F : RsaForm L} (hF : F.Laws) (K : KeyLib L) (hK : KeyLaws K) (c : CryptoConfig L)
    (hc : (newStored K c).Writable) :
    (readCrypto (confJson F) K (saveCrypto (confJson F) K c)).2 = true ∧
      SameConfig (readCrypto (confJson F) K (saveCrypto (confJson F) K c)).1 c :=
  C71_config_roundtrip (confJson F) (confJson_laws hF) K hK c hc

theorem ascii_lit {s : Str} (h : (s.all fun c => decide (c < 128)) = true) : Ascii s :=
  fun c hc => by simpa using List.all_eq_true.1 h c hc

theorem postfix_ascii (i : Nat) : Ascii (portPostfix i) := by
  unfold portPostfix
  split
  · exact ascii_append (ascii_lit (by decide)) (itoa_ascii i)
  · split
    · exact ascii_append (ascii_lit (by decide)) (itoa_ascii i)
    · split
      · exact itoa_ascii i
      · exact ascii_nil

theorem url_ascii (r : Role) (i : Nat) : Ascii (r.url i) := by
  unfold Role.url
  exact ascii_append (ascii_lit (by cases r <;> decide)) (postfix_ascii i)

theorem urlList_utf8 (r : Role) (n : Nat) (pre : Str) (h : ∀ i, pre ++ portPostfix i = r.url i) : Utf8s (urlList pre n) := by
  intro s hs
  obtain ⟨i, _, rfl⟩ := mem_urlList.1 hs
  rw [h]
  exact Utf8.of_ascii (url_ascii r i)

theorem cas_utf8 (n : Nat) : Utf8s (urlList prefixCA n) := urlList_utf8 .ca n _ fun _ => rfl
theorem loggers_utf8 (n : Nat) : Utf8s (urlList prefixLogger n) := urlList_utf8 .logger n _ fun _ => rfl
theorem monitors_utf8 (n : Nat) : Utf8s (urlList prefixMonitor n) := urlList_utf8 .monitor n _ fun _ => rfl
theorem gossipers_utf8 (n : Nat) : Utf8s (urlList prefixGossiper n) := urlList_utf8 .gossiper n _ fun _ => rfl

theorem port_utf8 (p : Str) (hp : Ascii p) (i : Nat) : Utf8 (p ++ portPostfix i) :=
  Utf8.of_ascii (ascii_append hp (postfix_ascii i))

/-- The crypto configuration a process runs with. -/
inductive RunsWith (mmd mrd : Int) (d : Deployment L) : CryptoConfig L → Prop
  | ca (f) (h : f ∈ d.cas) (ctx) (c) (hs : startCA F K (caTexts F mmd mrd f) = .running ctx) (hc : ctx.crypto = some c) :
      RunsWith mmd mrd d c
  | logger (f) (h : f ∈ d.loggers) (ctx) (c) (hs : startLogger F K (loggerTexts F mmd mrd f) = .running ctx)
      (hc : ctx.crypto = some c) : RunsWith mmd mrd d c
  | monitor (f) (h : f ∈ d.monitors) (ctx) (c) (hs : startMonitor F K (monitorTexts F mmd mrd f) = .running ctx)
      (hc : ctx.crypto = some c) : RunsWith mmd mrd d c
  | gossiper (f) (h : f ∈ d.gossipers) (ctx) (c) (hs : startGossiper F K (gossiperTexts F mmd mrd f) = .running ctx)
      (hc : ctx.crypto = some c) : RunsWith mmd mrd d c

/-- Every process of a deployment starts from its files, with what was generated for it. -/
structure StartsAsGenerated (mmd mrd : Int) (d : Deployment L) : Prop where
  cas : ∀ f ∈ d.cas, ∃ c, startCA F K (caTexts F mmd mrd f) =
    .running ⟨some ⟨f.pub.cas, f.pub.loggers, mmd, mmd, [go!"1.1"]⟩, some f.priv, some c⟩ ∧ SameConfig c (load K f.crypto)
  loggers : ∀ f ∈ d.loggers, ∃ c, startLogger F K (loggerTexts F mmd mrd f) =
    .running ⟨some ⟨f.pub.cas, f.pub.loggers, mmd, mmd, [go!"1.1"]⟩, some f.priv, some c⟩ ∧ SameConfig c (load K f.crypto)
  monitors : ∀ f ∈ d.monitors, ∃ c, startMonitor F K (monitorTexts F mmd mrd f) =
    .running ⟨some ⟨f.pub.cas, f.pub.loggers, 5, mmd, mmd⟩, some f.priv, some c⟩ ∧ SameConfig c (load K f.crypto)
  gossipers : ∀ f ∈ d.gossipers, ∃ c, startGossiper F K (gossiperTexts F mmd mrd f) =
    .running ⟨some ⟨5, mmd, mmd, f.pub.gossipers, f.pub.signers⟩, some f.priv, some c⟩ ∧ SameConfig c (load K f.crypto)

theorem readCryptoFile_gen {F : RsaForm L} (hF : F.Laws) (K : KeyLib L) (s : StoredConfig L) (hs : s.Writable)
    (hp : ∀ k v, s.thresholdPublicMap.get k = some v → ∃ p, K.pubDe v = some p) :
    ∃ c, (readCryptoFile F K (some (genText (storedJson F s)))).1 = some c ∧ SameConfig c (load K s) :=
  ⟨_, rfl, newCryptoConfig_same K _ _ (dec_genText hF s hs) hp⟩

theorem startCA_of {f : Texts} {p : Option PubConf} {q : CAPriv} {c : CryptoConfig L}
    (h1 : loadConf pubConfZero dPubConf f.pub = .running p) (h2 : loadConf caPrivZero dCAPriv f.priv = .running (some q))
    (h3 : (readCryptoFile F K f.crypto).1 = some c) : startCA F K f = .running ⟨p, some q, some c⟩ := by
  simp only [startCA, h1, h2, h3]

theorem startLogger_of {f : Texts} {p : Option PubConf} {q : Option LoggerPriv} {c : CryptoConfig L}
    (h1 : loadConf pubConfZero dPubConf f.pub = .running p) (h2 : loadConf logPrivZero dLogPriv f.priv = .running q)
    (h3 : (readCryptoFile F K f.crypto).1 = some c) : startLogger F K f = .running ⟨p, q, some c⟩ := by
  simp only [startLogger, h1, h2, h3]

theorem startMonitor_of {f : Texts} {p : Option MonPub} {q : Option MonitorPriv} {c : CryptoConfig L}
    (h1 : loadConf monPubZero dMonPub f.pub = .running p) (h2 : loadConf monPrivZero dMonPriv f.priv = .running q)
    (h3 : (readCryptoFile F K f.crypto).1 = some c) : startMonitor F K f = .running ⟨p, q, some c⟩ := by
  simp only [startMonitor, h1, h2, h3]

theorem startGossiper_of {f : Texts} {p : Option GosPub} {q : Option GossiperPriv} {c : CryptoConfig L}
    (h1 : loadConf gosPubZero dGosPub f.pub = .running p) (h2 : loadConf gosPrivZero dGosPriv f.priv = .running q)
    (h3 : (readCryptoFile F K f.crypto).1 = some c) : startGossiper F K f = .running ⟨p, q, some c⟩ := by
  simp only [startGossiper, h1, h2, h3]

/-- C143, what holds: every process of a generated deployment of two to a thousand gossipers and monitors and at least one
logger starts from the files written for it, with the URLs, ports and keys that were generated. -/
theorem C143_generated_start_partial {F : RsaForm L} (hF : F.Laws) (K : KeyLib L) (hK : KeyLaws K)
    (numG threshold numL numCA numCert : Nat) (mmd mrd : Int) (hg : 2 ≤ numG) (hg' : numG ≤ 1000) (hl : 0 < numL) (hl' : numL ≤ 1000)
    (hc : numCA ≤ 1000) (hid : ∀ i, i < numG → K.blsIdOk (Role.gossiper.url i) = true) (ht : threshold < 2 ^ 63)
    (hcert : numCert < 2 ^ 63) (hm : GoInt mmd) :
    ∃ d, generateAll K numG threshold numL numCA numCert = some d ∧ d.cas.length = numCA ∧ d.loggers.length = numL ∧
      d.monitors.length = numG ∧ d.gossipers.length = numG ∧ StartsAsGenerated F K mmd mrd d := by
  obtain ⟨d, rsaPubs, sec, blsPubs, blsSec, h0, hd, h1, h2, h3, h4, h5⟩ :=
    generateAll_spec K hK numG threshold numL numCA numCert hg hg' hl hl' hc hid
  obtain ⟨conn, hconn, hgo⟩ := hd.gossipers
  have hw : ∀ r i k bs, (cryptoFor numG threshold (Role.url r i) rsaPubs k blsPubs bs : StoredConfig L).Writable := by
    intro r i k bs
    refine ⟨⟨by simp only [cryptoFor]; omega, by simp only [cryptoFor]; omega⟩,
      ⟨by simp only [cryptoFor]; omega, by simp only [cryptoFor]; omega⟩, by simp only [cryptoFor]; omega, url_ascii r i,
      ⟨ascii_lit (s := go!"rsa") (by decide), ascii_lit (s := go!"bls") (by decide)⟩, ?_, ?_⟩
    · intro u v hu
      obtain ⟨r', j, _, rfl⟩ := mem_entities.1 (h2 u v hu)
      exact url_ascii r' j
    · intro u v hu
      obtain ⟨j, _, rfl⟩ := mem_urlList.1 (h4 u v hu)
      exact url_ascii .gossiper j
  have hread : ∀ r i k bs, ∃ c, (readCryptoFile F K (some (genText (storedJson F
      (cryptoFor numG threshold (Role.url r i) rsaPubs k blsPubs bs))))).1 = some c ∧
      SameConfig c (load K (cryptoFor numG threshold (Role.url r i) rsaPubs k blsPubs bs)) :=
    fun r i k bs => readCryptoFile_gen hF K _ (hw r i k bs) h3
  have hver : Utf8s [go!"1.1"] := by
    intro s hs
    have : s = go!"1.1" := by simpa using hs
    subst this
    exact Utf8.of_ascii (ascii_lit (by decide))
  have h5i : GoInt 5 := ⟨by omega, by omega⟩
  have hpub := loadConf_genText pubConfZero dPubConf _
    (show Json.NumOk (pubConfJson (genPub (urlList prefixLogger numL) (urlList prefixCA numCA) mmd mmd [go!"1.1"])) from
      ⟨numOk_jStrs _, numOk_jStrs _, numOk_jInt _, numOk_jInt _, numOk_jStrs _, trivial⟩) _
    (dPubConf_read (genPub (urlList prefixLogger numL) (urlList prefixCA numCA) mmd mmd [go!"1.1"])
      (cas_utf8 numCA) (loggers_utf8 numL) hm hm hver)
  refine ⟨d, h0, by rw [hd.cas]; simp, by rw [hd.loggers]; simp, by rw [hd.monitors]; simp, by rw [hgo]; simp, ?_, ?_, ?_, ?_⟩
  · intro f hf
    rw [hd.cas] at hf
    obtain ⟨i, _, rfl⟩ := List.mem_map.1 hf
    obtain ⟨c, hc1, hc2⟩ := hread .ca i (sec (Role.ca.url i)) []
    refine ⟨c, startCA_of F K hpub (loadConf_genText _ _ _ ?_ _ (dCAPriv_read _ (Utf8.of_ascii (url_ascii .ca i))
      (port_utf8 portCA (ascii_lit (by decide)) i) ?_ (monitors_utf8 numG) (gossipers_utf8 numG) hcert)) hc1, hc2⟩
    · exact ⟨trivial, trivial, numOk_jStrs _, numOk_jStrs _, numOk_jStrs _, numOk_itoa _, trivial⟩
    · intro s hs
      simp only [List.mem_cons, List.not_mem_nil, or_false] at hs
      rcases hs with rfl | rfl <;> exact Utf8.of_ascii (url_ascii .logger _)
  · intro f hf
    rw [hd.loggers] at hf
    obtain ⟨i, _, rfl⟩ := List.mem_map.1 hf
    obtain ⟨c, hc1, hc2⟩ := hread .logger i (sec (Role.logger.url i)) []
    refine ⟨c, startLogger_of F K hpub (loadConf_genText _ _ _ ?_ _ (dLogPriv_read _ (Utf8.of_ascii (url_ascii .logger i))
      (port_utf8 portLogger (ascii_lit (by decide)) i) (cas_utf8 numCA) (monitors_utf8 numG) (gossipers_utf8 numG))) hc1, hc2⟩
    exact ⟨trivial, trivial, numOk_jStrs _, numOk_jStrs _, numOk_jStrs _, trivial⟩
  · intro f hf
    rw [hd.monitors] at hf
    obtain ⟨i, _, rfl⟩ := List.mem_map.1 hf
    obtain ⟨c, hc1, hc2⟩ := hread .monitor i (sec (Role.monitor.url i)) []
    refine ⟨c, startMonitor_of F K (loadConf_genText _ _ _ ?_ _ (dMonPub_read ⟨_, _, 5, mmd, mmd⟩ (cas_utf8 numCA) (loggers_utf8 numL) h5i hm hm))
      (loadConf_genText _ _ _ ?_ _ (dMonPriv_read _ (cas_utf8 numCA) (loggers_utf8 numL)
        (Utf8.of_ascii (url_ascii .monitor i)) (Utf8.of_ascii (url_ascii .gossiper i)) (port_utf8 portGossiper (ascii_lit (by decide)) i)
        (port_utf8 portMonitor (ascii_lit (by decide)) i))) hc1, hc2⟩
    · exact ⟨numOk_jStrs _, numOk_jStrs _, numOk_jInt _, numOk_jInt _, numOk_jInt _, trivial⟩
    · exact ⟨numOk_jStrs _, numOk_jStrs _, trivial, trivial, trivial, trivial, trivial⟩
  · intro f hf
    rw [hgo] at hf
    obtain ⟨i, hi, rfl⟩ := List.mem_map.1 hf
    obtain ⟨c, hc1, hc2⟩ := hread .gossiper i (sec (Role.gossiper.url i)) (K.secSer (blsSec (Role.gossiper.url i)))
    obtain ⟨js, _, hjs⟩ := hconn i (List.mem_range.1 hi)
    refine ⟨c, startGossiper_of F K (loadConf_genText _ _ _ ?_ _ (dGosPub_read ⟨5, mmd, mmd, _, _⟩ h5i hm hm (gossipers_utf8 numG)
      (monitors_utf8 numG))) (loadConf_genText _ _ _ ?_ _ (dGosPriv_read _ ?_ ?_ ?_)) hc1, hc2⟩
    · exact ⟨numOk_jInt _, numOk_jInt _, numOk_jInt _, numOk_jStrs _, numOk_jStrs _, trivial⟩
    · exact ⟨numOk_jStrs _, trivial, trivial, trivial⟩
    · show Utf8s (conn i).connected
      rw [hjs]
      intro s hs
      obtain ⟨j, _, rfl⟩ := List.mem_map.1 hs
      exact Utf8.of_ascii (url_ascii .gossiper j)
    · show Utf8 (conn i).ownerURL
      rw [hjs]
      exact Utf8.of_ascii (url_ascii .monitor i)
    · show Utf8 (conn i).port
      rw [hjs]
      exact port_utf8 portGossiper (ascii_lit (by decide)) i

theorem sign_same {a b : CryptoConfig L} (h : SameConfig a b) (msg : Str) :
    a.sign msg = b.sign msg ∧ (∀ sig, a.verify msg sig = b.verify msg sig) ∧ a.thresholdSign msg = b.thresholdSign msg ∧
      ∀ f, a.fragmentVerify msg f = b.fragmentVerify msg f := by
  refine ⟨?_, ?_, ?_, ?_⟩
  · unfold CryptoConfig.sign
    rw [h.signScheme, h.signSecretKey, h.selfID]
  · intro sig
    unfold CryptoConfig.verify
    rw [h.signScheme, h.signPublicMap]
  · unfold CryptoConfig.thresholdSign
    rw [h.thresholdScheme, h.thresholdSecretKey, h.selfID]
  · intro f
    unfold CryptoConfig.fragmentVerify SigFragment.verify
    rw [h.thresholdScheme, h.thresholdPublicMap]

/-- A process runs with what its key file says. -/
theorem runsWith_load {mmd mrd : Int} {d : Deployment L} (hs : StartsAsGenerated F K mmd mrd d) {c : CryptoConfig L}
    (h : RunsWith F K mmd mrd d c) : ∃ s ∈ d.configs, SameConfig c (load K s) := by
  simp only [Deployment.configs, List.mem_append, List.mem_map]
  cases h with
  | ca f h ctx c hst hc =>
    obtain ⟨c', e, hsame⟩ := hs.cas f h
    rw [hst] at e
    cases e
    cases hc
    exact ⟨_, .inl (.inl (.inl ⟨f, h, rfl⟩)), hsame⟩
  | logger f h ctx c hst hc =>
    obtain ⟨c', e, hsame⟩ := hs.loggers f h
    rw [hst] at e
    cases e
    cases hc
    exact ⟨_, .inl (.inl (.inr ⟨f, h, rfl⟩)), hsame⟩
  | monitor f h ctx c hst hc =>
    obtain ⟨c', e, hsame⟩ := hs.monitors f h
    rw [hst] at e
    cases e
    cases hc
    exact ⟨_, .inl (.inr ⟨f, h, rfl⟩), hsame⟩
  | gossiper f h ctx c hst hc =>
    obtain ⟨c', e, hsame⟩ := hs.gossipers f h
    rw [hst] at e
    cases e
    cases hc
    exact ⟨_, .inr ⟨f, h, rfl⟩, hsame⟩

/-- C143, what holds: the processes started from generated files understand each other: what one signs every other one
accepts, and every one accepts the fragments of the gossipers. -/
theorem C143_started_interoperate_partial {F : RsaForm L} (hF : F.Laws) (K : KeyLib L) (hK : KeyLaws K) (rsa : L.RsaLaws K.rsaPub)
    (bls : L.BlsLaws K.blsPub) (numG threshold numL numCA numCert : Nat) (mmd mrd : Int) (hg : 2 ≤ numG) (hg' : numG ≤ 1000)
    (hl : 0 < numL) (hl' : numL ≤ 1000) (hc : numCA ≤ 1000) (hid : ∀ i, i < numG → K.blsIdOk (Role.gossiper.url i) = true)
    (ht : threshold < 2 ^ 63) (hcert : numCert < 2 ^ 63) (hm : GoInt mmd) :
    ∃ d, generateAll K numG threshold numL numCA numCert = some d ∧
      (∀ a b, RunsWith F K mmd mrd d a → RunsWith F K mmd mrd d b →
        ∀ msg sig, a.sign msg = some sig → b.verify msg sig = .ok) ∧
      ∀ f ∈ d.gossipers, ∀ ctx a b, startGossiper F K (gossiperTexts F mmd mrd f) = .running ctx → ctx.crypto = some a →
        RunsWith F K mmd mrd d b → ∀ msg, b.fragmentVerify msg (a.thresholdSign msg).1 = .ok := by
  obtain ⟨d, h0, _, _, _, _, hs⟩ :=
    C143_generated_start_partial hF K hK numG threshold numL numCA numCert mmd mrd hg hg' hl hl' hc hid ht hcert hm
  obtain ⟨d', h0', _, hi⟩ := C87_deployment_interoperates_partial K hK rsa bls numG threshold numL numCA numCert hg hg' hl hl' hc hid
  rw [h0] at h0'
  cases h0'
  refine ⟨d, h0, ?_, ?_⟩
  · intro a b ha hb msg sig hsig
    obtain ⟨sa, ha1, ha2⟩ := runsWith_load F K hs ha
    obtain ⟨sb, hb1, hb2⟩ := runsWith_load F K hs hb
    rw [(sign_same hb2 msg).2.1]
    exact hi.1 sa ha1 sb hb1 msg sig (by rw [← (sign_same ha2 msg).1]; exact hsig)
  · intro f hf ctx a b hst hctx hb msg
    obtain ⟨c', e, hsame⟩ := hs.gossipers f hf
    rw [hst] at e
    cases e
    cases hctx
    obtain ⟨sb, hb1, hb2⟩ := runsWith_load F K hs hb
    rw [(sign_same hb2 msg).2.2.2, (sign_same hsame msg).2.2.1]
    exact hi.2 f hf sb hb1 msg

/-- C143, what holds: a client starts exactly if its configuration file decodes into the configuration it was given and all
keys of its crypto file can be read; nothing else ends in a running client, and nothing panics. -/
theorem C143_client_start_partial (config : Option ClientConf) (file crypto : Option Str) :
    (∀ c cc, startClient F K config file crypto = .running (c, cc) ↔ ∃ z t j u, config = some z ∧ file = some t ∧
      Json.parse t = some j ∧ dClient z j = (c, true) ∧ crypto = some u ∧
      newVerifyOnly K (unmarshal (storedZero F) (dStored F) u).1 = (cc, true)) ∧
    startClient F K config file crypto ≠ .panic := by
  have hr : ∀ u, readVerifyFile F K (some u) = (some (newVerifyOnly K (unmarshal (storedZero F) (dStored F) u).1).1,
      (newVerifyOnly K (unmarshal (storedZero F) (dStored F) u).1).2) := fun _ => rfl
  cases config with
  | none => cases file <;> simp [startClient]
  | some z =>
    cases file with
    | none => simp [startClient]
    | some t =>
      cases hp : Json.parse t with
      | none => simp [startClient, unmarshal, hp]
      | some j =>
        have hu : unmarshal z dClient t = dClient z j := by simp only [unmarshal, hp]
        rcases hd : dClient z j with ⟨a, b⟩
        cases b with
        | false => simp [startClient, hu, hd, hp]
        | true =>
          cases crypto with
          | none => simp [startClient, hu, hd, readVerifyFile]
          | some u =>
            rcases hn : newVerifyOnly K (unmarshal (storedZero F) (dStored F) u).1 with ⟨x, y⟩
            cases y <;> simp [startClient, hu, hd, hr, hn, hp]

/-- C143, what holds: a client started from a written configuration and the key file of any entity runs with that
configuration and judges every object as that entity does. -/
theorem C143_client_reads_partial {F : RsaForm L} (hF : F.Laws) (K : KeyLib L) (z p : ClientConf) (hz : z.monitors = [])
    (h1 : ∀ u ∈ p.monitors, Ascii u) (h2 : Ascii p.url ∧ Ascii p.port) (h3 : GoInt p.mmd ∧ GoInt p.mrd)
    (h4 : Ascii p.sthPath ∧ Ascii p.crvPath ∧ Ascii p.pomPath) (s : StoredConfig L) (hs : s.Writable)
    (hp : ∀ k v, s.thresholdPublicMap.get k = some v → ∃ q, K.pubDe v = some q) :
    ∃ cc, startClient F K (some z) (some (genText (clientJson p))) (some (genText (storedJson F s))) = .running (p, cc) ∧
      ∀ g : GossipObj, g.verify cc = g.verify (load K s) := by
  have hn : Json.NumOk (clientJson p) :=
    ⟨numOk_jStrs _, trivial, trivial, numOk_jInt _, numOk_jInt _, trivial, trivial, trivial, trivial⟩
  have hu : unmarshal z dClient (genText (clientJson p)) = (p, true) := by
    unfold genText
    rw [unmarshal_indent _ _ _ _ blank_space blank_space _ hn]
    exact dClient_read z p hz (fun u hu => Utf8.of_ascii (h1 u hu)) (Utf8.of_ascii h2.1) (Utf8.of_ascii h2.2) h3.1 h3.2
      (Utf8.of_ascii h4.1) (Utf8.of_ascii h4.2.1) (Utf8.of_ascii h4.2.2)
  have hd := dec_genText hF s hs
  obtain ⟨m, e1, e2⟩ := deserializePubs_get K ((confJson F).dec (genText (storedJson F s))).thresholdPublicMap
    (fun k v hk => hp k v (by rw [← hd.thresholdPublicMap]; exact hk))
  obtain ⟨_, _, _, _, b4, b5, _, b7, _, b9, _⟩ := newCryptoConfig_fields K s hp
  refine ⟨(newVerifyOnly K ((confJson F).dec (genText (storedJson F s)))).1, ?_, ?_⟩
  · simp only [startClient, hu, if_true, readVerifyFile, readVerifyOnly, newVerifyOnly, e1]
  · refine verify_congr ⟨?_, ?_, ?_, ?_⟩
    · show ((confJson F).dec _).signScheme = _
      rw [hd.signScheme]; exact b4.symm
    · show ((confJson F).dec _).thresholdScheme = _
      rw [hd.thresholdScheme]; exact b5.symm
    · intro k
      show ((confJson F).dec _).signPublicMap.get k = (newCryptoConfig K s).1.signPublicMap.get k
      rw [hd.signPublicMap, b7]
    · intro k
      show (newVerifyOnly K _).1.thresholdPublicMap.get k = (newCryptoConfig K s).1.thresholdPublicMap.get k
      simp only [newVerifyOnly, e1]
      rw [e2, b9, hd.thresholdPublicMap]

/-- C143 fails: the MRD `Generateall` is called with reaches no process; all of them run with the MMD in its place. -/
theorem C143_violated_mrd_ignored {F : RsaForm L} (hF : F.Laws) (K : KeyLib L) (hK : KeyLaws K)
    (numG threshold numL numCA numCert : Nat) (mmd mrd : Int) (hg : 2 ≤ numG) (hg' : numG ≤ 1000) (hl : 0 < numL) (hl' : numL ≤ 1000)
    (hc : numCA ≤ 1000) (hid : ∀ i, i < numG → K.blsIdOk (Role.gossiper.url i) = true) (ht : threshold < 2 ^ 63)
    (hcert : numCert < 2 ^ 63) (hm : GoInt mmd) (hne : mrd ≠ mmd) :
    ∃ d, generateAll K numG threshold numL numCA numCert = some d ∧ d.gossipers ≠ [] ∧ d.monitors ≠ [] ∧
      (∀ f ∈ d.gossipers, ∃ ctx p, startGossiper F K (gossiperTexts F mmd mrd f) = .running ctx ∧ ctx.pub = some p ∧ p.mrd ≠ mrd) ∧
      ∀ f ∈ d.monitors, ∃ ctx p, startMonitor F K (monitorTexts F mmd mrd f) = .running ctx ∧ ctx.pub = some p ∧ p.mrd ≠ mrd := by
  obtain ⟨d, h0, _, _, h3, h4, hs⟩ :=
    C143_generated_start_partial hF K hK numG threshold numL numCA numCert mmd mrd hg hg' hl hl' hc hid ht hcert hm
  refine ⟨d, h0, ?_, ?_, ?_, ?_⟩
  · intro e; rw [e] at h4; simp at h4; omega
  · intro e; rw [e] at h3; simp at h3; omega
  · intro f hf
    obtain ⟨c, h, _⟩ := hs.gossipers f hf
    exact ⟨_, _, h, rfl, fun e => hne e.symm⟩
  · intro f hf
    obtain ⟨c, h, _⟩ := hs.monitors f hf
    exact ⟨_, _, h, rfl, fun e => hne e.symm⟩

end

/-! ### Concrete cases -/

namespace Ref

/-- A string as a number. -/
def codeStr : Str → Nat
  | [] => 0
  | c :: t => codeStr t * 257 + (c.toNat + 1)

def decodeStr : Nat → Nat → Str
  | 0, _ => []
  | f + 1, n => if n = 0 then [] else UInt8.ofNat (n % 257 - 1) :: decodeStr f (n / 257)

theorem decode_code (s : Str) : ∀ f, codeStr s ≤ f → decodeStr f (codeStr s) = s := by
  induction s with
  | nil => intro f _; cases f <;> rfl
  | cons c t ih =>
    intro f hf
    have hc : c.toNat < 256 := c.toNat_lt
    simp only [codeStr] at hf ⊢
    cases f with
    | zero => omega
    | succ f =>
      rw [decodeStr, if_neg (by omega)]
      have h1 : (codeStr t * 257 + (c.toNat + 1)) % 257 = c.toNat + 1 := by omega
      have h2 : (codeStr t * 257 + (c.toNat + 1)) / 257 = codeStr t := by omega
      rw [h1, h2, ih f (by omega)]
      simp

/-- Keys as numbers: the modulus tells the key, and the zero key has no modulus. -/
def pubOf (p : Str) : PubNums := if p = [] then pubZero else ⟨some (codeStr p), 65537⟩

def privOf (k : Str) : PrivNums :=
  if k = [] then privZero else { privZero with n := some (codeStr k), e := 65537, primes := [some 3, some 5], qinv := some 2 }

def keyOf : Option Int → Str
  | none => []
  | some n => decodeStr n.natAbs n.natAbs

def form : RsaForm lib where
  pub := pubOf
  ofPub p := keyOf p.n
  priv := privOf
  ofPriv p := keyOf p.n

theorem formLaws : form.Laws where
  pub p := by
    show keyOf (pubOf p).n = p
    unfold pubOf
    split
    · next h => exact h.symm
    · exact decode_code p _ (Nat.le_refl _)
  priv p := by
    show keyOf (privOf p).n = p
    unfold privOf
    split
    · next h => exact h.symm
    · exact decode_code p _ (Nat.le_refl _)
  zeroPub := rfl
  zeroPriv := rfl
  pubE p := by
    show GoInt (pubOf p).e
    unfold pubOf
    split
    · exact ⟨by decide, by decide⟩
    · exact ⟨show (-2 ^ 63 : Int) ≤ 65537 by decide, show (65537 : Int) < 2 ^ 63 by decide⟩
  privE p := by
    show GoInt (privOf p).e
    unfold privOf
    split
    · exact ⟨by decide, by decide⟩
    · exact ⟨show (-2 ^ 63 : Int) ≤ 65537 by decide, show (65537 : Int) < 2 ^ 63 by decide⟩

theorem ids_ok (n : Nat) (hn : n ≤ 1000) : ∀ i, i < n → keys.blsIdOk (Role.gossiper.url i) = true := by
  intro i hi
  have h3 : (portPostfix i).length ≤ 3 := by
    have : ∀ i : Fin 1000, (portPostfix i.1).length ≤ 3 := by decide +kernel
    exact this ⟨i, by omega⟩
  have : (Role.gossiper.url i).length ≤ 32 := by
    simp only [Role.url, List.length_append, List.length_cons, List.length_nil]
    omega
  simpa [keys] using this

/-- C143: a deployment of three gossipers and monitors, two loggers and two CAs starts from its files. -/
example : ∃ d, generateAll keys 3 2 2 2 4 = some d ∧ d.cas.length = 2 ∧ d.loggers.length = 2 ∧ d.monitors.length = 3 ∧
    d.gossipers.length = 3 ∧ StartsAsGenerated form keys 60 30 d :=
  C143_generated_start_partial formLaws keys keyLaws 3 2 2 2 4 60 30 (by omega) (by omega) (by omega) (by omega) (by omega)
    (ids_ok 3 (by omega)) (by omega) (by omega) ⟨by omega, by omega⟩

example : ∃ d, generateAll keys 3 2 2 2 4 = some d ∧
    ∀ a b, RunsWith form keys 60 30 d a → RunsWith form keys 60 30 d b → ∀ msg sig, a.sign msg = some sig → b.verify msg sig = .ok := by
  obtain ⟨d, h, h1, _⟩ := C143_started_interoperate_partial formLaws keys keyLaws rsaLaws blsLaws 3 2 2 2 4 60 30 (by omega) (by omega)
    (by omega) (by omega) (by omega) (ids_ok 3 (by omega)) (by omega) (by omega) ⟨by omega, by omega⟩
  exact ⟨d, h, h1⟩

/-- The files of the first gossiper of a deployment of two. -/
def gos1 : Option Texts := (generateAll keys 2 2 1 1 4).bind fun d => d.gossipers.head?.map (gossiperTexts form 60 30)

def shownGos (r : Started (Context lib GosPub GossiperPriv)) : Option (Option GosPub × Option GossiperPriv × Option (Str × Str)) :=
  match r with
  | .running c => some (c.pub, c.priv, c.crypto.map fun x => (x.selfID, x.signSecretKey))
  | _ => none

set_option synthInstance.maxSize 1000 in
/-- Started from its files: MMD and MRD are both 60. -/
example : gos1.map (fun t => shownGos (startGossiper form keys t)) =
    some (some (some ⟨5, 60, 60, [go!"localhost:9000", go!"localhost:9001"], [go!"localhost:8000", go!"localhost:8001"]⟩,
      some ⟨[go!"localhost:9001"], go!"localhost:8000", go!"9000"⟩, some (go!"localhost:9000", go!"rsa0"))) := by decide +kernel

set_option synthInstance.maxSize 1000 in
/-- Without the crypto file, and with a truncated one. -/
example : gos1.map (fun t => ((shownGos (startGossiper form keys { t with crypto := none })).map (·.2.2),
      (shownGos (startGossiper form keys { t with crypto := t.crypto.map (·.take 100) })).map (·.2.2),
      (shownGos (startGossiper form keys { t with priv := t.priv.map (·.take 20) })).map (·.2.2))) =
    some (some none, some (some ([], [])), none) := by decide +kernel

/-- A truncated file is not JSON. -/
example : (gos1.bind fun t => t.crypto.map fun c => (Json.parse (c.take 100)).isNone) = some true := by decide +kernel

def shownClient (r : Started (ClientConf × CryptoConfig lib)) : Option (ClientConf × Str × Bool) :=
  match r with
  | .running (c, x) => some (c, x.selfID, (x.signPublicMap.get (go!"localhost:7000")).isSome)
  | _ => none

def myClient : ClientConf := ⟨[go!"localhost:8000"], go!"localhost:5000", go!"5000", 60, 60, go!"sth", go!"crv", go!"pom"⟩

set_option synthInstance.maxSize 1000 in
/-- A client with a configuration of its own and the key file of a generated gossiper. -/
example : gos1.map (fun t => shownClient (startClient form keys (some clientZero) (some (genText (clientJson myClient))) t.crypto)) =
    some (some (myClient, go!"localhost:9000", true)) := by decide +kernel

/-- C143: two entities without numbers, one with the member of another key format. -/
example : ∃ c, startGossiper form keys ⟨some (go!"null"), some (go!"null"), some (go!"{\"SignPublicMap\":{\"L1\":{},\"C1\":{\"kty\":\"RSA\"}}}")⟩ =
      .running ⟨none, none, some c⟩ ∧
    ∀ a ∈ [go!"L1", go!"C1"], ∃ k, c.signPublicMap.get a = some k ∧ (form.pub k).n = none ∧ (form.pub k).e = 0 :=
  C143_violated_empty_keys form keys formLaws _ [(go!"L1", []), (go!"C1", [(go!"kty", .str (go!"RSA"))])] (by rfl)
    (by unfold Unrelated; decide +kernel) _ _ _ _ ⟨_, _, rfl, by rfl, .inl ⟨rfl, rfl⟩⟩ ⟨_, _, rfl, by rfl, .inl ⟨rfl, rfl⟩⟩

end Ref
end CTng
