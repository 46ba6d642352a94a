import Verif.Props.Gen
/- C87, C89: the key material of generated deployments, before and after the mapping to IP addresses. -/
set_option autoImplicit false

namespace CTng
namespace Gen

/-! ### C87: generated deployments -/

section Deploy
variable {L : Lib} (K : KeyLib L)

theorem loggerPrivMap_get (Gs Ms Cs : List Str) (numL : Nat) (hl : numL ≤ 1000) (i : Nat) (hi : i < numL) :
    (loggerPrivMap Gs Ms Cs numL).get (Role.logger.url i) =
      some ⟨Role.logger.url i, portLogger ++ portPostfix i, Cs, Ms, Gs⟩ := by
  unfold loggerPrivMap
  refine (assignAll_get _ ?_ _ _).2 (List.mem_map.2 ⟨i, List.mem_range.2 hi, rfl⟩)
  rw [List.map_map]
  exact urlList_nodup prefixLogger numL hl

theorem monitorPrivMap_get (n : Nat) (hn : n ≤ 1000) (Cs Ls : List Str) :
    ∃ m, monitorPrivMap (urlList prefixGossiper n) (urlList prefixMonitor n) Cs Ls = some m ∧ ∀ i, i < n →
      m.get (Role.monitor.url i) = some ⟨Cs, Ls, Role.monitor.url i, Role.gossiper.url i, portGossiper ++ portPostfix i,
        portMonitor ++ portPostfix i⟩ := by
  let Ms := urlList prefixMonitor n
  let g : Str × Nat → Str × MonitorPriv := fun m => (m.1,
      { cas := Cs, loggers := Ls, signer := m.1, gossiperURL := Role.gossiper.url m.2, inboundPort := portGossiper ++ portPostfix m.2,
        port := portMonitor ++ portPostfix m.2 })
  have hm : (Ms.zipIdx.mapM fun m => (urlList prefixGossiper n)[m.2]?.map fun g => (m.1,
      { cas := Cs, loggers := Ls, signer := m.1, gossiperURL := g, inboundPort := portGossiper ++ portPostfix m.2,
        port := portMonitor ++ portPostfix m.2 : MonitorPriv })) = some (Ms.zipIdx.map g) := by
    refine mapM_some _ _ _ fun e he => ?_
    rw [urlList_getElem, if_pos (mem_zipIdx_url he).1]
    rfl
  refine ⟨_, by unfold monitorPrivMap; rw [show urlList prefixMonitor n = Ms from rfl, hm]; rfl, ?_⟩
  intro i hi
  refine (assignAll_get _ ?_ _ _).2 (List.mem_map.2 ⟨_, zipIdx_url_mem (pre := prefixMonitor) hi, rfl⟩)
  have : (Ms.zipIdx.map g).map (·.1) = Ms := by
    rw [List.map_map]
    have e : ((fun e : Str × MonitorPriv => e.1) ∘ g) = Prod.fst := rfl
    rw [e, List.zipIdx_map_fst]
  rw [this]
  exact urlList_nodup _ _ hn

theorem blsGenAll_get (hK : KeyLaws K) (Gs : List Str) (h2 : 2 ≤ Gs.length) (hid : ∀ g ∈ Gs, K.blsIdOk g = true) :
    ∃ pubs privs, blsGenAll K Gs = some (pubs, privs) ∧
      (∀ k v, pubs.get k = some v → ∃ p, K.pubDe v = some p) ∧
      (∀ k v, pubs.get k = some v → k ∈ Gs) ∧
      ∀ g ∈ Gs, ∃ s, privs.get g = some (K.secSer s) ∧ pubs.get g = some (K.pubSer (K.blsPub s)) := by
  obtain ⟨pubs, privs, h1, h3, h4⟩ := thresholdKeys_get K Gs Gs.length h2 hid
  have hkeys : ∀ k s, privs.get k = some s → k ∈ Gs := by
    intro k s hk
    unfold generateThresholdKeypairs at h1
    rw [if_neg (by omega), if_pos (List.all_eq_true.2 hid)] at h1
    cases h1
    have key : ∀ (l : List (Str × L.BlsSec)) (m : GoMap Str L.BlsSec), (m.assignAll l).get k = some s →
        k ∈ l.map (·.1) ∨ m.get k = some s := by
      intro l
      induction l with
      | nil => intro m h; exact .inr h
      | cons e t ih =>
        intro m h
        rcases ih (m.set e.1 e.2) h with h | h
        · exact .inl (List.mem_cons_of_mem _ h)
        · rw [GoMap.get_set] at h
          by_cases hke : k = e.1
          · exact .inl (by rw [hke]; simp)
          · rw [if_neg hke] at h; exact .inr h
    rcases key _ _ hk with h | h
    · rw [List.map_map] at h
      have e1 : ((fun e : Str × L.BlsSec => e.1) ∘ fun e : Str × Nat => (e.1, blsSecretAt K Gs.length e.2 e.1)) = Prod.fst := rfl
      rwa [e1, List.zipIdx_map_fst] at h
    · cases h
  unfold blsGenAll
  rw [h1]
  refine ⟨_, _, rfl, ?_, ?_, ?_⟩
  · intro k v hk
    rw [serializePubs_get] at hk
    cases hp : pubs.get k with
    | none => rw [hp] at hk; cases hk
    | some p => rw [hp] at hk; cases hk; exact ⟨p, hK.pub p⟩
  · intro k v hk
    rw [serializePubs_get, h3] at hk
    cases hp : privs.get k with
    | none => rw [hp] at hk; cases hk
    | some p => exact hkeys k p hp
  · intro g hg
    obtain ⟨s, hs⟩ := h4 g hg
    obtain ⟨v, hv⟩ := assignAll_mem (Gs.map fun g => (g, K.secSer ((privs.get g).getD K.blsZeroSec))) g (by
      rw [List.map_map]; simpa using hg)
    have key : ∀ (l : List Str) (m : GoMap Str Str) w, (m.get g = some w → w = K.secSer s) →
        (m.assignAll (l.map fun g => (g, K.secSer ((privs.get g).getD K.blsZeroSec)))).get g = some w → w = K.secSer s := by
      intro l
      induction l with
      | nil => intro m w h0 h; exact h0 h
      | cons e t ih =>
        intro m w h0 h
        refine ih (m.set e (K.secSer ((privs.get e).getD K.blsZeroSec))) w ?_ h
        intro h'
        rw [GoMap.get_set] at h'
        by_cases hge : g = e
        · subst hge
          rw [if_pos rfl, hs] at h'
          exact (Option.some.inj h').symm
        · rw [if_neg hge] at h'; exact h0 h'
    refine ⟨s, ?_, ?_⟩
    · rw [hv, key Gs .empty v (by intro h; cases h) hv]
    · rw [serializePubs_get, h3, hs]; rfl

theorem list_as_map {α : Type} (f : Nat → α) (P : Nat → Prop) (l : List α) (h : ∀ a ∈ l, ∃ j, P j ∧ a = f j) :
    ∃ js : List Nat, l = js.map f ∧ ∀ j ∈ js, P j := by
  induction l with
  | nil => exact ⟨[], rfl, by simp⟩
  | cons a t ih =>
    obtain ⟨js, h1, h2⟩ := ih fun b hb => h b (List.mem_cons_of_mem _ hb)
    obtain ⟨j, hj, rfl⟩ := h a List.mem_cons_self
    exact ⟨j :: js, by rw [h1]; rfl, by
      intro k hk
      rcases List.mem_cons.1 hk with rfl | hk
      · exact hj
      · exact h2 k hk⟩

/-- What `Generateall` writes. -/
structure IsGenerated (numG threshold numL numCA numCert : Nat) (rsaPubs : GoMap Str L.RsaPub) (sec : Str → L.RsaPriv)
    (blsPubs : GoMap Str Str) (blsSec : Str → L.BlsSec) (d : Deployment L) : Prop where
  cas : d.cas = (List.range numCA).map fun i =>
    ⟨⟨urlList prefixCA numCA, urlList prefixLogger numL⟩,
      ⟨Role.ca.url i, portCA ++ portPostfix i, [Role.logger.url (i % numL), Role.logger.url (numL - 1 - i % numL)],
        urlList prefixMonitor numG, urlList prefixGossiper numG, numCert⟩,
      cryptoFor numG threshold (Role.ca.url i) rsaPubs (sec (Role.ca.url i)) blsPubs []⟩
  loggers : d.loggers = (List.range numL).map fun i =>
    ⟨⟨urlList prefixCA numCA, urlList prefixLogger numL⟩,
      ⟨Role.logger.url i, portLogger ++ portPostfix i, urlList prefixCA numCA, urlList prefixMonitor numG, urlList prefixGossiper numG⟩,
      cryptoFor numG threshold (Role.logger.url i) rsaPubs (sec (Role.logger.url i)) blsPubs []⟩
  monitors : d.monitors = (List.range numG).map fun i =>
    ⟨⟨urlList prefixCA numCA, urlList prefixLogger numL⟩,
      ⟨urlList prefixCA numCA, urlList prefixLogger numL, Role.monitor.url i, Role.gossiper.url i, portGossiper ++ portPostfix i,
        portMonitor ++ portPostfix i⟩,
      cryptoFor numG threshold (Role.monitor.url i) rsaPubs (sec (Role.monitor.url i)) blsPubs []⟩
  gossipers : ∃ conn : Nat → GossiperPriv, (∀ i, i < numG → ∃ js : List Nat, (∀ j ∈ js, j < numG) ∧
      conn i = ⟨js.map Role.gossiper.url, Role.monitor.url i, portGossiper ++ portPostfix i⟩) ∧ d.gossipers = (List.range numG).map fun i =>
    ⟨⟨urlList prefixGossiper numG, urlList prefixMonitor numG⟩, conn i,
      cryptoFor numG threshold (Role.gossiper.url i) rsaPubs (sec (Role.gossiper.url i)) blsPubs (K.secSer (blsSec (Role.gossiper.url i)))⟩

/-- All generated entities. -/
def entities (numG numL numCA : Nat) : List Str :=
  urlList prefixGossiper numG ++ urlList prefixMonitor numG ++ urlList prefixCA numCA ++ urlList prefixLogger numL

theorem generateAll_spec (hK : KeyLaws K) (numG threshold numL numCA numCert : Nat) (hg : 2 ≤ numG) (hg' : numG ≤ 1000)
    (hl : 0 < numL) (hl' : numL ≤ 1000) (hc : numCA ≤ 1000) (hid : ∀ i, i < numG → K.blsIdOk (Role.gossiper.url i) = true) :
    ∃ d rsaPubs sec blsPubs blsSec, generateAll K numG threshold numL numCA numCert = some d ∧
      IsGenerated K numG threshold numL numCA numCert rsaPubs sec blsPubs blsSec d ∧
      (∀ u ∈ entities numG numL numCA, rsaPubs.get u = some (K.rsaPub (sec u))) ∧
      (∀ k v, rsaPubs.get k = some v → k ∈ entities numG numL numCA) ∧
      (∀ k v, blsPubs.get k = some v → ∃ p, K.pubDe v = some p) ∧
      (∀ k v, blsPubs.get k = some v → k ∈ urlList prefixGossiper numG) ∧
      ∀ i, i < numG → blsPubs.get (Role.gossiper.url i) = some (K.pubSer (K.blsPub (blsSec (Role.gossiper.url i)))) := by
  let Gs := urlList prefixGossiper numG
  let Ms := urlList prefixMonitor numG
  let Cs := urlList prefixCA numCA
  let Ls := urlList prefixLogger numL
  let rsa := rsaGen K (Gs ++ Ms ++ Cs ++ Ls)
  let sec : Str → L.RsaPriv := fun u => (rsa.2.get u).getD K.rsaZero
  have hsec : ∀ u ∈ entities numG numL numCA, rsa.2.get u = some (sec u) ∧ rsa.1.get u = some (K.rsaPub (sec u)) := by
    intro u hu
    obtain ⟨k, h1, h2⟩ := rsaGen_get K (Gs ++ Ms ++ Cs ++ Ls) u hu
    have : sec u = k := by simp only [sec, rsa, h1, Option.getD_some]
    exact ⟨by rw [this]; exact h1, by rw [this]; exact h2⟩
  have hkeys : ∀ k v, rsa.1.get k = some v → k ∈ entities numG numL numCA := by
    intro k v hk
    have key : ∀ (l : List (Str × L.RsaPub)) (m : GoMap Str L.RsaPub), (m.assignAll l).get k = some v →
        k ∈ l.map (·.1) ∨ m.get k = some v := by
      intro l
      induction l with
      | nil => intro m h; exact .inr h
      | cons e t ih =>
        intro m h
        rcases ih (m.set e.1 e.2) h with h | h
        · exact .inl (List.mem_cons_of_mem _ h)
        · rw [GoMap.get_set] at h
          by_cases hke : k = e.1
          · exact .inl (by rw [hke]; simp)
          · rw [if_neg hke] at h; exact .inr h
    rcases key _ _ hk with h | h
    · rw [List.map_map, List.map_map] at h
      have e1 : (((fun e : Str × L.RsaPub => e.1) ∘ fun e : Str × L.RsaPriv => (e.1, K.rsaPub e.2)) ∘ fun e : Str × Nat => (e.1, K.rsaRand e.2)) = Prod.fst := rfl
      rwa [e1, List.zipIdx_map_fst] at h
    · cases h
  obtain ⟨blsPubs, blsPrivs, hb, hb1, hb2, hb3⟩ := blsGenAll_get K hK Gs (by rw [urlList_length]; exact hg) (by
    intro g hgm
    obtain ⟨i, hi, rfl⟩ := mem_urlList.1 hgm
    exact hid i hi)
  let blsSec : Str → L.BlsSec := fun u => ((blsPrivs.get u).bind K.secDe).getD K.blsZeroSec
  have hbls : ∀ g ∈ Gs, (blsPrivs.get g).getD [] = K.secSer (blsSec g) ∧ blsPubs.get g = some (K.pubSer (K.blsPub (blsSec g))) := by
    intro g hgm
    obtain ⟨s, h1, h2⟩ := hb3 g hgm
    have : blsSec g = s := by simp only [blsSec, h1, Option.bind_some, hK.sec, Option.getD_some]
    rw [this, h1]
    exact ⟨rfl, h2⟩
  obtain ⟨caP, hcaP, hcaG⟩ := caPrivMap_get Gs Ms numCA numL numCert hc hl
  obtain ⟨monP, hmonP, hmonG⟩ := monitorPrivMap_get numG hg' Cs Ls
  obtain ⟨gosP, hgosP, hgosG⟩ := C69_gossipers_complete numG hg'
  let conn : Nat → GossiperPriv := fun i => (gosP.get (Role.gossiper.url i)).getD ⟨[], [], []⟩
  have memG : ∀ i, i < numG → Role.gossiper.url i ∈ entities numG numL numCA := fun i hi => by
    simp only [entities, List.mem_append]; exact .inl (.inl (.inl (mem_urlList.2 ⟨i, hi, rfl⟩)))
  have memM : ∀ i, i < numG → Role.monitor.url i ∈ entities numG numL numCA := fun i hi => by
    simp only [entities, List.mem_append]; exact .inl (.inl (.inr (mem_urlList.2 ⟨i, hi, rfl⟩)))
  have memC : ∀ i, i < numCA → Role.ca.url i ∈ entities numG numL numCA := fun i hi => by
    simp only [entities, List.mem_append]; exact .inl (.inr (mem_urlList.2 ⟨i, hi, rfl⟩))
  have memL : ∀ i, i < numL → Role.logger.url i ∈ entities numG numL numCA := fun i hi => by
    simp only [entities, List.mem_append]; exact .inr (mem_urlList.2 ⟨i, hi, rfl⟩)
  have hcas := mapM_some (fun u => do
      some (⟨⟨Cs, Ls⟩, ← caP.get u, cryptoFor numG threshold u rsa.1 (← rsa.2.get u) blsPubs []⟩ : Files L RolePub CAPriv))
    (fun u => ⟨⟨Cs, Ls⟩, (caP.get u).getD ⟨[], [], [], [], [], 0⟩, cryptoFor numG threshold u rsa.1 (sec u) blsPubs []⟩) Cs (by
      intro u hu
      obtain ⟨i, hi, rfl⟩ := mem_urlList.1 hu
      rw [hcaG i hi, caPriv_eq _ _ _ _ _ hl]
      have h1 : rsa.2.get (prefixCA ++ portPostfix i) = some (sec (prefixCA ++ portPostfix i)) := (hsec _ (memC i hi)).1
      rw [h1]; rfl)
  have hlogs := mapM_some (fun u => do
      some (⟨⟨Cs, Ls⟩, ← (loggerPrivMap Gs Ms Cs numL).get u, cryptoFor numG threshold u rsa.1 (← rsa.2.get u) blsPubs []⟩ : Files L RolePub LoggerPriv))
    (fun u => ⟨⟨Cs, Ls⟩, ((loggerPrivMap Gs Ms Cs numL).get u).getD ⟨[], [], [], [], []⟩, cryptoFor numG threshold u rsa.1 (sec u) blsPubs []⟩) Ls (by
      intro u hu
      obtain ⟨i, hi, rfl⟩ := mem_urlList.1 hu
      have h0 : (loggerPrivMap Gs Ms Cs numL).get (prefixLogger ++ portPostfix i) = _ := loggerPrivMap_get Gs Ms Cs numL hl' i hi
      have h1 : rsa.2.get (prefixLogger ++ portPostfix i) = some (sec (prefixLogger ++ portPostfix i)) := (hsec _ (memL i hi)).1
      rw [h0, h1]; rfl)
  have hmons := mapM_some (fun u => do
      some (⟨⟨Cs, Ls⟩, ← monP.get u, cryptoFor numG threshold u rsa.1 (← rsa.2.get u) blsPubs []⟩ : Files L RolePub MonitorPriv))
    (fun u => ⟨⟨Cs, Ls⟩, (monP.get u).getD ⟨[], [], [], [], [], []⟩, cryptoFor numG threshold u rsa.1 (sec u) blsPubs []⟩) Ms (by
      intro u hu
      obtain ⟨i, hi, rfl⟩ := mem_urlList.1 hu
      have h0 : monP.get (prefixMonitor ++ portPostfix i) = _ := hmonG i hi
      have h1 : rsa.2.get (prefixMonitor ++ portPostfix i) = some (sec (prefixMonitor ++ portPostfix i)) := (hsec _ (memM i hi)).1
      rw [h0, h1]; rfl)
  have hgoss := mapM_some (fun u => do
      some (⟨⟨Gs, Ms⟩, ← gosP.get u, cryptoFor numG threshold u rsa.1 (← rsa.2.get u) blsPubs ((blsPrivs.get u).getD [])⟩ : Files L GossiperPub GossiperPriv))
    (fun u => ⟨⟨Gs, Ms⟩, (gosP.get u).getD ⟨[], [], []⟩, cryptoFor numG threshold u rsa.1 (sec u) blsPubs (K.secSer (blsSec u))⟩) Gs (by
      intro u hu
      obtain ⟨i, hi, rfl⟩ := mem_urlList.1 hu
      obtain ⟨p, hp, _⟩ := hgosG i hi
      have h1 : rsa.2.get (prefixGossiper ++ portPostfix i) = some (sec (prefixGossiper ++ portPostfix i)) := (hsec _ (memG i hi)).1
      rw [hp, h1, (hbls _ hu).1]; rfl)
  refine ⟨{
      cas := Cs.map fun u => ⟨⟨Cs, Ls⟩, (caP.get u).getD ⟨[], [], [], [], [], 0⟩, cryptoFor numG threshold u rsa.1 (sec u) blsPubs []⟩
      loggers := Ls.map fun u =>
        ⟨⟨Cs, Ls⟩, ((loggerPrivMap Gs Ms Cs numL).get u).getD ⟨[], [], [], [], []⟩, cryptoFor numG threshold u rsa.1 (sec u) blsPubs []⟩
      monitors := Ms.map fun u =>
        ⟨⟨Cs, Ls⟩, (monP.get u).getD ⟨[], [], [], [], [], []⟩, cryptoFor numG threshold u rsa.1 (sec u) blsPubs []⟩
      gossipers := Gs.map fun u =>
        ⟨⟨Gs, Ms⟩, (gosP.get u).getD ⟨[], [], []⟩, cryptoFor numG threshold u rsa.1 (sec u) blsPubs (K.secSer (blsSec u))⟩ },
    rsa.1, sec, blsPubs, blsSec, ?_, ?_, fun u hu => (hsec u hu).2, hkeys, hb1, hb2,
    fun i hi => (hbls _ (mem_urlList.2 ⟨i, hi, rfl⟩)).2⟩
  · unfold generateAll
    simp only [show urlList prefixGossiper numG = Gs from rfl, show urlList prefixMonitor numG = Ms from rfl,
      show urlList prefixCA numCA = Cs from rfl, show urlList prefixLogger numL = Ls from rfl] at hb hcaP hmonP hgosP ⊢
    simp only [show rsaGen K (Gs ++ Ms ++ Cs ++ Ls) = rsa from rfl, hb, Option.bind_eq_bind, Option.bind_some, hcaP, hmonP, hgosP]
    simp only [Option.bind_eq_bind] at hcas hlogs hmons hgoss
    rw [hcas, hlogs, hmons, hgoss]
    rfl
  · refine ⟨?_, ?_, ?_, conn, ?_, ?_⟩
    · show Cs.map _ = _
      simp only [Cs]
      rw [ca_urls, List.map_map]
      refine List.map_congr_left fun i hi => ?_
      have h0 : caP.get (Role.ca.url i) = _ := (hcaG i (List.mem_range.1 hi)).trans (caPriv_eq _ _ _ _ _ hl)
      simp only [Function.comp, h0, Option.getD_some, ← ca_urls]
      rfl
    · show Ls.map _ = _
      simp only [Ls]
      rw [logger_urls, List.map_map]
      refine List.map_congr_left fun i hi => ?_
      have h0 := loggerPrivMap_get Gs Ms Cs numL hl' i (List.mem_range.1 hi)
      simp only [Function.comp, h0, Option.getD_some, ← logger_urls]
      rfl
    · show Ms.map _ = _
      simp only [Ms]
      rw [monitor_urls, List.map_map]
      refine List.map_congr_left fun i hi => ?_
      have h0 := hmonG i (List.mem_range.1 hi)
      simp only [Function.comp, h0, Option.getD_some, ← monitor_urls]
      rfl
    · intro i hi
      obtain ⟨p, hp, h1, h2, _, _, h3⟩ := hgosG i hi
      have hp' : gosP.get (Role.gossiper.url i) = some p := hp
      obtain ⟨js, hjs, hjs'⟩ := list_as_map Role.gossiper.url (· < numG) p.connected (fun u hu => by
        obtain ⟨j, hj, _, rfl⟩ := (h3 u).1 hu
        exact ⟨j, hj, rfl⟩)
      refine ⟨js, hjs', ?_⟩
      simp only [conn, hp', Option.getD_some]
      rw [← hjs]
      obtain ⟨pc, po, pp⟩ := p
      cases h1; cases h2; rfl
    · show Gs.map _ = _
      simp only [Gs]
      rw [gossiper_urls, List.map_map]
      rfl

/-- All key files of a deployment. -/
def Deployment.configs (d : Deployment L) : List (StoredConfig L) :=
  d.cas.map (·.crypto) ++ d.loggers.map (·.crypto) ++ d.monitors.map (·.crypto) ++ d.gossipers.map (·.crypto)

/-- What an entity runs with: the stored configuration, read with errors ignored (the initialisation functions ignore them). -/
def load (s : StoredConfig L) : CryptoConfig L := (newCryptoConfig K s).1

/-- A stored configuration that belongs to a family of keys under the names `name r i`. -/
structure Belongs (name : Role → Nat → Str) (num : Role → Nat) (sec : Role → Nat → L.RsaPriv) (bsec : Nat → L.BlsSec)
    (r : Role) (i : Nat) (s : StoredConfig L) : Prop where
  inRange : i < num r
  self : (load K s).selfID = name r i
  schemes : (load K s).signScheme = go!"rsa" ∧ (load K s).thresholdScheme = go!"bls"
  key : (load K s).signSecretKey = sec r i
  bls : r = .gossiper → (load K s).thresholdSecretKey = bsec i
  pubs : ∀ r' j, j < num r' → (load K s).signPublicMap.get (name r' j) = some (K.rsaPub (sec r' j))
  bpubs : ∀ j, j < num .gossiper → (load K s).thresholdPublicMap.get (name .gossiper j) = some (K.blsPub (bsec j))

/-- A deployment all of whose key files belong together. -/
structure Coherent (name : Role → Nat → Str) (num : Role → Nat) (sec : Role → Nat → L.RsaPriv) (bsec : Nat → L.BlsSec)
    (d : Deployment L) : Prop where
  cas : d.cas.length = num .ca ∧ ∀ i f, d.cas[i]? = some f → Belongs K name num sec bsec .ca i f.crypto
  loggers : d.loggers.length = num .logger ∧ ∀ i f, d.loggers[i]? = some f → Belongs K name num sec bsec .logger i f.crypto
  monitors : d.monitors.length = num .monitor ∧ ∀ i f, d.monitors[i]? = some f → Belongs K name num sec bsec .monitor i f.crypto
  gossipers : d.gossipers.length = num .gossiper ∧ ∀ i f, d.gossipers[i]? = some f → Belongs K name num sec bsec .gossiper i f.crypto

theorem Coherent.all {name : Role → Nat → Str} {num : Role → Nat} {sec : Role → Nat → L.RsaPriv} {bsec : Nat → L.BlsSec}
    {d : Deployment L} (h : Coherent K name num sec bsec d) : ∀ s ∈ d.configs, ∃ r i, Belongs K name num sec bsec r i s := by
  intro s hs
  simp only [Deployment.configs, List.mem_append, List.mem_map] at hs
  rcases hs with ((⟨f, hf, rfl⟩ | ⟨f, hf, rfl⟩) | ⟨f, hf, rfl⟩) | ⟨f, hf, rfl⟩ <;> obtain ⟨i, hi⟩ := List.getElem?_of_mem hf
  · exact ⟨_, _, h.cas.2 i f hi⟩
  · exact ⟨_, _, h.loggers.2 i f hi⟩
  · exact ⟨_, _, h.monitors.2 i f hi⟩
  · exact ⟨_, _, h.gossipers.2 i f hi⟩

/-- Entities with these key files understand each other: whatever one signs the others accept, and the gossipers' fragments
are accepted by everybody. -/
def Interoperates (d : Deployment L) : Prop :=
  (∀ a ∈ d.configs, ∀ b ∈ d.configs, ∀ msg sig, (load K a).sign msg = some sig → (load K b).verify msg sig = .ok) ∧
  ∀ f ∈ d.gossipers, ∀ b ∈ d.configs, ∀ msg,
    (load K b).fragmentVerify msg ((load K f.crypto).thresholdSign msg).1 = .ok

theorem Coherent.interoperates {name : Role → Nat → Str} {num : Role → Nat} {sec : Role → Nat → L.RsaPriv} {bsec : Nat → L.BlsSec}
    {d : Deployment L} (h : Coherent K name num sec bsec d) (rsa : L.RsaLaws K.rsaPub) (bls : L.BlsLaws K.blsPub) :
    Interoperates K d := by
  refine ⟨fun a ha b hb msg sig => ?_, fun f hf b hb msg => ?_⟩
  · obtain ⟨r, i, hA⟩ := h.all K a ha
    obtain ⟨r', j, hB⟩ := h.all K b hb
    exact trusts_verify K rsa ⟨⟨hB.schemes.1, hA.schemes.1⟩, by rw [hA.self, hB.pubs r i hA.inRange, hA.key]⟩ msg sig
  · obtain ⟨i, hi⟩ := List.getElem?_of_mem hf
    have hA := h.gossipers.2 i f hi
    obtain ⟨r', j, hB⟩ := h.all K b hb
    exact trustsFrag_verify K bls ⟨⟨hB.schemes.2, hA.schemes.2⟩, by rw [hA.self, hB.bpubs i hA.inRange, hA.bls rfl]⟩ msg

/-- The number of entities of each role. -/
def numOf (numG numL numCA : Nat) : Role → Nat
  | .ca => numCA
  | .logger => numL
  | .monitor => numG
  | .gossiper => numG

theorem mem_entities {numG numL numCA : Nat} {u : Str} :
    u ∈ entities numG numL numCA ↔ ∃ r i, i < numOf numG numL numCA r ∧ u = Role.url r i := by
  simp only [entities, List.mem_append, mem_urlList]
  constructor
  · rintro (((⟨i, h, rfl⟩ | ⟨i, h, rfl⟩) | ⟨i, h, rfl⟩) | ⟨i, h, rfl⟩)
    · exact ⟨.gossiper, i, h, rfl⟩
    · exact ⟨.monitor, i, h, rfl⟩
    · exact ⟨.ca, i, h, rfl⟩
    · exact ⟨.logger, i, h, rfl⟩
  · rintro ⟨r, i, h, rfl⟩
    cases r
    · exact .inl (.inr ⟨i, h, rfl⟩)
    · exact .inr ⟨i, h, rfl⟩
    · exact .inl (.inl (.inr ⟨i, h, rfl⟩))
    · exact .inl (.inl (.inl ⟨i, h, rfl⟩))

section Family
variable {numG threshold numL numCA numCert : Nat} {rsaPubs : GoMap Str L.RsaPub} {sec : Str → L.RsaPriv}
  {blsPubs : GoMap Str Str} {blsSec : Str → L.BlsSec} {d : Deployment L}

theorem belongs_cryptoFor (hK : KeyLaws K)
    (h1 : ∀ u ∈ entities numG numL numCA, rsaPubs.get u = some (K.rsaPub (sec u)))
    (h3 : ∀ k v, blsPubs.get k = some v → ∃ p, K.pubDe v = some p)
    (h5 : ∀ i, i < numG → blsPubs.get (Role.gossiper.url i) = some (K.pubSer (K.blsPub (blsSec (Role.gossiper.url i)))))
    (r : Role) (i : Nat) (hi : i < numOf numG numL numCA r) (bs : Str)
    (hbs : r = .gossiper → bs = K.secSer (blsSec (Role.gossiper.url i))) :
    Belongs K Role.url (numOf numG numL numCA) (fun r i => sec (r.url i)) (fun i => blsSec (Role.gossiper.url i)) r i
      (cryptoFor numG threshold (r.url i) rsaPubs (sec (r.url i)) blsPubs bs) := by
  obtain ⟨_, _, _, _, e4, e5, e6, e7, e8, e9, e10⟩ := newCryptoConfig_fields K
    (cryptoFor numG threshold (r.url i) rsaPubs (sec (r.url i)) blsPubs bs) h3
  refine ⟨hi, e6, ⟨e4, e5⟩, e8, ?_, ?_, ?_⟩
  · intro hr
    subst hr
    show (newCryptoConfig K _).1.thresholdSecretKey = _
    rw [e10]
    simp only [cryptoFor, hbs rfl, hK.sec, Option.getD_some]
  · intro r' j hj
    show (newCryptoConfig K _).1.signPublicMap.get _ = _
    rw [e7]
    exact h1 _ (mem_entities.2 ⟨r', j, hj, rfl⟩)
  · intro j hj
    show (newCryptoConfig K _).1.thresholdPublicMap.get _ = _
    rw [e9]
    simp only [cryptoFor, h5 j hj, Option.bind_some, hK.pub]

theorem range_map_get {α : Type} {n i : Nat} {g : Nat → α} {f : α} (h : ((List.range n).map g)[i]? = some f) : i < n ∧ f = g i := by
  simp only [List.getElem?_map] at h
  cases hr : (List.range n)[i]? with
  | none => rw [hr] at h; cases h
  | some j =>
    obtain ⟨hlt, hj⟩ := List.getElem?_eq_some_iff.1 hr
    simp only [List.length_range] at hlt
    simp only [List.getElem_range] at hj
    subst hj
    rw [hr] at h
    exact ⟨hlt, (Option.some.inj h).symm⟩

theorem coherent_of_generated (hK : KeyLaws K) (hd : IsGenerated K numG threshold numL numCA numCert rsaPubs sec blsPubs blsSec d)
    (h1 : ∀ u ∈ entities numG numL numCA, rsaPubs.get u = some (K.rsaPub (sec u)))
    (h3 : ∀ k v, blsPubs.get k = some v → ∃ p, K.pubDe v = some p)
    (h5 : ∀ i, i < numG → blsPubs.get (Role.gossiper.url i) = some (K.pubSer (K.blsPub (blsSec (Role.gossiper.url i))))) :
    Coherent K Role.url (numOf numG numL numCA) (fun r i => sec (r.url i)) (fun i => blsSec (Role.gossiper.url i)) d := by
  obtain ⟨conn, _, hg⟩ := hd.gossipers
  refine ⟨⟨by rw [hd.cas]; simp [numOf], ?_⟩, ⟨by rw [hd.loggers]; simp [numOf], ?_⟩, ⟨by rw [hd.monitors]; simp [numOf], ?_⟩,
    ⟨by rw [hg]; simp [numOf], ?_⟩⟩ <;> intro i f hf
  · rw [hd.cas] at hf
    obtain ⟨hi, rfl⟩ := range_map_get hf
    exact belongs_cryptoFor K hK h1 h3 h5 .ca i hi [] (by intro h; cases h)
  · rw [hd.loggers] at hf
    obtain ⟨hi, rfl⟩ := range_map_get hf
    exact belongs_cryptoFor K hK h1 h3 h5 .logger i hi [] (by intro h; cases h)
  · rw [hd.monitors] at hf
    obtain ⟨hi, rfl⟩ := range_map_get hf
    exact belongs_cryptoFor K hK h1 h3 h5 .monitor i hi [] (by intro h; cases h)
  · rw [hg] at hf
    obtain ⟨hi, rfl⟩ := range_map_get hf
    exact belongs_cryptoFor K hK h1 h3 h5 .gossiper i hi _ (fun _ => rfl)

end Family

/-- C68: every generated process listens on the port its own URL names, and a monitor on the port its gossiper's URL names. -/
theorem C68_ports_match (hK : KeyLaws K) (numG threshold numL numCA numCert : Nat) (hg : 2 ≤ numG) (hg' : numG ≤ 1000) (hl : 0 < numL)
    (hl' : numL ≤ 1000) (hc : numCA ≤ 1000) (hid : ∀ i, i < numG → K.blsIdOk (Role.gossiper.url i) = true) :
    ∃ d, generateAll K numG threshold numL numCA numCert = some d ∧
      (∀ f ∈ d.cas, f.priv.signer = go!"localhost:" ++ f.priv.port ∧ f.crypto.selfID = f.priv.signer) ∧
      (∀ f ∈ d.loggers, f.priv.signer = go!"localhost:" ++ f.priv.port ∧ f.crypto.selfID = f.priv.signer) ∧
      (∀ f ∈ d.monitors, f.priv.signer = go!"localhost:" ++ f.priv.port ∧ f.crypto.selfID = f.priv.signer ∧
        f.priv.gossiperURL = go!"localhost:" ++ f.priv.inboundPort) ∧
      ∀ f ∈ d.gossipers, f.crypto.selfID = go!"localhost:" ++ f.priv.port := by
  obtain ⟨d, rsaPubs, sec, blsPubs, blsSec, h0, hd, _⟩ := generateAll_spec K hK numG threshold numL numCA numCert hg hg' hl hl' hc hid
  obtain ⟨conn, hconn, hgo⟩ := hd.gossipers
  refine ⟨d, h0, ?_, ?_, ?_, ?_⟩
  · intro f hf
    rw [hd.cas] at hf
    obtain ⟨i, _, rfl⟩ := List.mem_map.1 hf
    exact ⟨rfl, rfl⟩
  · intro f hf
    rw [hd.loggers] at hf
    obtain ⟨i, _, rfl⟩ := List.mem_map.1 hf
    exact ⟨rfl, rfl⟩
  · intro f hf
    rw [hd.monitors] at hf
    obtain ⟨i, _, rfl⟩ := List.mem_map.1 hf
    exact ⟨rfl, rfl, rfl⟩
  · intro f hf
    rw [hgo] at hf
    obtain ⟨i, hi, rfl⟩ := List.mem_map.1 hf
    obtain ⟨js, _, hjs⟩ := hconn i (List.mem_range.1 hi)
    show Role.gossiper.url i = _ ++ (conn i).port
    rw [hjs]
    rfl

/-- C69: the lists of a generated deployment name everybody: CAs, loggers and monitors know all CAs and loggers, gossipers all
gossipers and monitors; a CA and a logger post to all monitors and gossipers; monitor `i` belongs to gossiper `i`. -/
theorem C69_lists_complete (hK : KeyLaws K) (numG threshold numL numCA numCert : Nat) (hg : 2 ≤ numG) (hg' : numG ≤ 1000) (hl : 0 < numL)
    (hl' : numL ≤ 1000) (hc : numCA ≤ 1000) (hid : ∀ i, i < numG → K.blsIdOk (Role.gossiper.url i) = true) :
    ∃ d, generateAll K numG threshold numL numCA numCert = some d ∧
      (∀ f ∈ d.cas, f.pub.cas = d.cas.map (·.priv.signer) ∧ f.pub.loggers = d.loggers.map (·.priv.signer) ∧
        f.priv.monitors = d.monitors.map (·.priv.signer) ∧ f.priv.gossipers = d.gossipers.map (·.crypto.selfID) ∧
        f.priv.certPerPeriod = numCert) ∧
      (∀ f ∈ d.loggers, f.pub.cas = d.cas.map (·.priv.signer) ∧ f.pub.loggers = d.loggers.map (·.priv.signer) ∧
        f.priv.cas = d.cas.map (·.priv.signer) ∧
        f.priv.monitors = d.monitors.map (·.priv.signer) ∧ f.priv.gossipers = d.gossipers.map (·.crypto.selfID)) ∧
      (∀ f ∈ d.monitors, f.pub.cas = d.cas.map (·.priv.signer) ∧ f.pub.loggers = d.loggers.map (·.priv.signer) ∧
        f.priv.cas = d.cas.map (·.priv.signer) ∧ f.priv.loggers = d.loggers.map (·.priv.signer)) ∧
      (∀ f ∈ d.gossipers, f.pub.gossipers = d.gossipers.map (·.crypto.selfID) ∧ f.pub.signers = d.monitors.map (·.priv.signer)) ∧
      d.gossipers.map (·.priv.ownerURL) = d.monitors.map (·.priv.signer) ∧
      d.monitors.map (·.priv.gossiperURL) = d.gossipers.map (·.crypto.selfID) := by
  obtain ⟨d, rsaPubs, sec, blsPubs, blsSec, h0, hd, _⟩ := generateAll_spec K hK numG threshold numL numCA numCert hg hg' hl hl' hc hid
  obtain ⟨conn, hconn, hgo⟩ := hd.gossipers
  have e1 : d.cas.map (·.priv.signer) = urlList prefixCA numCA := by rw [hd.cas, List.map_map]; rfl
  have e2 : d.loggers.map (·.priv.signer) = urlList prefixLogger numL := by rw [hd.loggers, List.map_map]; rfl
  have e3 : d.monitors.map (·.priv.signer) = urlList prefixMonitor numG := by rw [hd.monitors, List.map_map]; rfl
  have e4 : d.gossipers.map (·.crypto.selfID) = urlList prefixGossiper numG := by rw [hgo, List.map_map]; rfl
  refine ⟨d, h0, ?_⟩
  rw [e1, e2, e3, e4]
  refine ⟨?_, ?_, ?_, ?_, ?_, ?_⟩
  · intro f hf
    rw [hd.cas] at hf
    obtain ⟨i, _, rfl⟩ := List.mem_map.1 hf
    exact ⟨rfl, rfl, rfl, rfl, rfl⟩
  · intro f hf
    rw [hd.loggers] at hf
    obtain ⟨i, _, rfl⟩ := List.mem_map.1 hf
    exact ⟨rfl, rfl, rfl, rfl, rfl⟩
  · intro f hf
    rw [hd.monitors] at hf
    obtain ⟨i, _, rfl⟩ := List.mem_map.1 hf
    exact ⟨rfl, rfl, rfl, rfl⟩
  · intro f hf
    rw [hgo] at hf
    obtain ⟨i, _, rfl⟩ := List.mem_map.1 hf
    exact ⟨rfl, rfl⟩
  · rw [hgo, List.map_map]
    refine List.map_congr_left fun i hi => ?_
    obtain ⟨js, _, hjs⟩ := hconn i (List.mem_range.1 hi)
    show (conn i).ownerURL = _
    rw [hjs]
    rfl
  · rw [hd.monitors, List.map_map]
    rfl

/-- C87, what holds: a generated deployment of two to a thousand gossipers and monitors and at least one logger gives every
entity its own id and keys with which everybody understands everybody. -/
theorem C87_deployment_interoperates_partial (hK : KeyLaws K) (rsa : L.RsaLaws K.rsaPub) (bls : L.BlsLaws K.blsPub)
    (numG threshold numL numCA numCert : Nat) (hg : 2 ≤ numG) (hg' : numG ≤ 1000) (hl : 0 < numL) (hl' : numL ≤ 1000)
    (hc : numCA ≤ 1000) (hid : ∀ i, i < numG → K.blsIdOk (Role.gossiper.url i) = true) :
    ∃ d, generateAll K numG threshold numL numCA numCert = some d ∧
      d.configs.map (fun s => (load K s).selfID) =
        urlList prefixCA numCA ++ urlList prefixLogger numL ++ urlList prefixMonitor numG ++ urlList prefixGossiper numG ∧
      Interoperates K d := by
  obtain ⟨d, rsaPubs, sec, blsPubs, blsSec, h0, hd, h1, _, h3, _, h5⟩ :=
    generateAll_spec K hK numG threshold numL numCA numCert hg hg' hl hl' hc hid
  have hco := coherent_of_generated K hK hd h1 h3 h5
  refine ⟨d, h0, ?_, hco.interoperates K rsa bls⟩
  obtain ⟨conn, _, hgo⟩ := hd.gossipers
  have hself : ∀ u k bs, (load K (cryptoFor numG threshold u rsaPubs k blsPubs bs)).selfID = u := fun u k bs =>
    (newCryptoConfig_fields K (cryptoFor numG threshold u rsaPubs k blsPubs bs) h3).2.2.2.2.2.2.1
  simp only [Deployment.configs, hd.cas, hd.loggers, hd.monitors, hgo, List.map_append, List.map_map, Function.comp_def, hself]
  rfl

/-! ### C87 is false with a single gossiper -/

/-- With one gossiper the generation of threshold keys fails and the failure is ignored: no key file holds any public key for
fragments, and the gossiper's secret is the zero value. -/
theorem C87_violated_one_gossiper (hK : KeyLaws K) (threshold numL numCA numCert : Nat) (d : Deployment L)
    (h : generateAll K 1 threshold numL numCA numCert = some d) :
    (∀ s ∈ d.configs, ∀ id, (load K s).thresholdPublicMap.get id = none) ∧
    ∀ f ∈ d.gossipers, (load K f.crypto).thresholdSecretKey = K.blsZeroSec := by
  have hb : blsGenAll K (urlList prefixGossiper 1) =
      some (serializePubs K .empty, GoMap.empty.assignAll ((urlList prefixGossiper 1).map fun g => (g, K.secSer K.blsZeroSec))) := by
    unfold blsGenAll generateThresholdKeypairs
    rw [urlList_length, if_pos (by omega)]
  have hemp : ∀ k v, (serializePubs K (.empty : GoMap Str L.BlsPub)).get k = some v → False := by
    intro k v hk; rw [serializePubs_get] at hk; cases hk
  have hmm : ∀ {α β : Type} (f : α → Option β) (l : List α) (r : List β), l.mapM f = some r → ∀ b ∈ r, ∃ a ∈ l, f a = some b := by
    intro α β f l
    induction l with
    | nil => intro r hr b hb; cases hr; cases hb
    | cons a t ih =>
      intro r hr b hb
      rw [List.mapM_cons] at hr
      cases ha : f a with
      | none => rw [ha] at hr; cases hr
      | some x =>
        cases ht : t.mapM f with
        | none => rw [ha, ht] at hr; cases hr
        | some y =>
          rw [ha, ht] at hr
          cases hr
          rcases List.mem_cons.1 hb with rfl | hb
          · exact ⟨a, by simp, ha⟩
          · obtain ⟨c, hc, hc'⟩ := ih y ht b hb
            exact ⟨c, List.mem_cons_of_mem _ hc, hc'⟩
  have hgetP : ∀ u k bs id, (load K (cryptoFor 1 threshold u (rsaGen K (urlList prefixGossiper 1 ++ urlList prefixMonitor 1 ++
      urlList prefixCA numCA ++ urlList prefixLogger numL)).1 k (serializePubs K .empty) bs)).thresholdPublicMap.get id = none := by
    intro u k bs id
    have := (newCryptoConfig_fields K (cryptoFor 1 threshold u (rsaGen K (urlList prefixGossiper 1 ++ urlList prefixMonitor 1 ++
      urlList prefixCA numCA ++ urlList prefixLogger numL)).1 k (serializePubs K .empty) bs)
      (fun k v hk => (hemp k v hk).elim)).2.2.2.2.2.2.2.2.2.1 id
    show (newCryptoConfig K _).1.thresholdPublicMap.get id = none
    rw [this]
    simp only [cryptoFor, serializePubs_get]
    rfl
  unfold generateAll at h
  simp only [hb, Option.bind_eq_bind, Option.bind_some] at h
  obtain ⟨caP, _, h⟩ := Option.bind_eq_some_iff.1 h
  obtain ⟨cas, hcas, h⟩ := Option.bind_eq_some_iff.1 h
  obtain ⟨logs, hlogs, h⟩ := Option.bind_eq_some_iff.1 h
  obtain ⟨monP, _, h⟩ := Option.bind_eq_some_iff.1 h
  obtain ⟨mons, hmons, h⟩ := Option.bind_eq_some_iff.1 h
  obtain ⟨gosP, _, h⟩ := Option.bind_eq_some_iff.1 h
  obtain ⟨gos, hgos, h⟩ := Option.bind_eq_some_iff.1 h
  cases h
  refine ⟨?_, ?_⟩
  · intro s hs id
    simp only [Deployment.configs, List.mem_append, List.mem_map] at hs
    rcases hs with ((⟨f, hf, rfl⟩ | ⟨f, hf, rfl⟩) | ⟨f, hf, rfl⟩) | ⟨f, hf, rfl⟩
    · obtain ⟨u, _, hu⟩ := hmm _ _ _ hcas f hf
      obtain ⟨x, _, hu⟩ := Option.bind_eq_some_iff.1 hu
      obtain ⟨y, _, hu⟩ := Option.bind_eq_some_iff.1 hu
      cases hu
      exact hgetP _ _ _ _
    · obtain ⟨u, _, hu⟩ := hmm _ _ _ hlogs f hf
      obtain ⟨x, _, hu⟩ := Option.bind_eq_some_iff.1 hu
      obtain ⟨y, _, hu⟩ := Option.bind_eq_some_iff.1 hu
      cases hu
      exact hgetP _ _ _ _
    · obtain ⟨u, _, hu⟩ := hmm _ _ _ hmons f hf
      obtain ⟨x, _, hu⟩ := Option.bind_eq_some_iff.1 hu
      obtain ⟨y, _, hu⟩ := Option.bind_eq_some_iff.1 hu
      cases hu
      exact hgetP _ _ _ _
    · obtain ⟨u, _, hu⟩ := hmm _ _ _ hgos f hf
      obtain ⟨x, _, hu⟩ := Option.bind_eq_some_iff.1 hu
      obtain ⟨y, _, hu⟩ := Option.bind_eq_some_iff.1 hu
      cases hu
      exact hgetP _ _ _ _
  · intro f hf
    obtain ⟨u, hmem, hu⟩ := hmm _ _ _ hgos f hf
    obtain ⟨x, _, hu⟩ := Option.bind_eq_some_iff.1 hu
    obtain ⟨y, _, hu⟩ := Option.bind_eq_some_iff.1 hu
    cases hu
    have hz : ((GoMap.empty : GoMap Str Str).assignAll ((urlList prefixGossiper 1).map fun g => (g, K.secSer K.blsZeroSec))).get u =
        some (K.secSer K.blsZeroSec) := by
      refine (assignAll_get _ ?_ _ _).2 (List.mem_map.2 ⟨u, hmem, rfl⟩)
      rw [List.map_map]
      simpa [Function.comp_def] using urlList_nodup prefixGossiper 1 (by omega)
    show (newCryptoConfig K _).1.thresholdSecretKey = _
    rw [(newCryptoConfig_fields K _ (fun k v hk => (hemp k v hk).elim)).2.2.2.2.2.2.2.2.2.2]
    simp only [cryptoFor, hz, Option.getD_some, hK.sec]

/-! ### C89: the mapping to IP addresses keeps the keys -/

theorem hostsFor_url (ips : IPs) (r : Role) {i : Nat} (hi : i < 1000) :
    ∃ hosts, hostsFor ips (r.url i) = some hosts ∧ ∀ j : Nat, ipAt hosts j = r.host ips j := by
  have hl : (r.url i).length = 14 := by simp [Role.url, portPostfix_length hi]
  have ht : (r.url i).take 11 = go!"localhost:" ++ [r.digit] := by
    unfold Role.url
    exact List.take_left' rfl
  unfold hostsFor
  rw [if_neg (by omega), ht]
  cases r
  · exact ⟨ips.ca, rfl, fun _ => rfl⟩
  · exact ⟨ips.logger, rfl, fun _ => rfl⟩
  · exact ⟨ips.monitor, rfl, fun _ => rfl⟩
  · exact ⟨ips.gossiper, rfl, fun _ => rfl⟩

theorem mapKey_url (ips : IPs) (r : Role) {i : Nat} (hi : i < 1000) : mapKey ips (r.url i) = some (r.addr ips i) := by
  obtain ⟨hosts, h1, h2⟩ := hostsFor_url ips r hi
  unfold mapKey
  simp only [h1, last3_url r hi, Option.bind_eq_bind, Option.bind_some, atoiIgnore_portPostfix hi, withHost_url r hi, h2]
  rfl

theorem digit_inj {r r' : Role} (h : r.digit = r'.digit) : r = r' := by
  cases r <;> cases r' <;> first | rfl | (exact absurd h (by decide))

/-- Different entities have different addresses even if they share an IP, whatever the table. -/
theorem addr_inj (ips : IPs) {r r' : Role} {i j : Nat} (hi : i < 1000) (hj : j < 1000) (h : r.addr ips i = r'.addr ips j) :
    r = r' ∧ i = j := by
  have hl : (go!":" ++ [r.digit] ++ portPostfix i).length = (go!":" ++ [r'.digit] ++ portPostfix j).length := by
    simp [portPostfix_length hi, portPostfix_length hj]
  have h1 := List.append_inj_right' h hl
  have h2 := List.append_inj h1 rfl
  have h3 : r.digit = r'.digit := by simpa using h2.1
  exact ⟨digit_inj h3, portPostfix_inj hi hj h2.2⟩

/-- Renaming the keys of a map whose keys are entities. -/
theorem mapEntries {V : Type} (ips : IPs) (m : GoMap Str V) (hm : ∀ k v, m.get k = some v → ∃ (r : Role) (i : Nat), i < 1000 ∧ k = r.url i) :
    ∃ l, (m.entries.mapM fun e => (mapKey ips e.1).map (·, e.2)) = some l ∧
      ∀ (r : Role) (i : Nat), i < 1000 → ((GoMap.empty : GoMap Str V).assignAll l).get (r.addr ips i) = m.get (r.url i) := by
  let g : Str × V → Str × V := fun e => ((mapKey ips e.1).getD [], e.2)
  have hent : ∀ e ∈ m.entries, ∃ (r : Role) (i : Nat), i < 1000 ∧ e.1 = r.url i := fun e he =>
    hm e.1 e.2 ((GoMap.get_eq_some_iff m _ _).2 he)
  have hl : (m.entries.mapM fun e => (mapKey ips e.1).map (·, e.2)) = some (m.entries.map g) := by
    refine mapM_some _ _ _ fun e he => ?_
    obtain ⟨r, i, hi, h⟩ := hent e he
    simp only [g, h, mapKey_url ips r hi]
    rfl
  refine ⟨_, hl, fun r i hi => option_ext_some fun v => ?_⟩
  rw [assignAll_get]
  · constructor
    · intro h
      obtain ⟨e, he, heq⟩ := List.mem_map.1 h
      obtain ⟨r', j, hj, hu⟩ := hent e he
      simp only [g, hu, mapKey_url ips r' hj, Option.getD_some, Prod.mk.injEq] at heq
      obtain ⟨rfl, rfl⟩ := addr_inj ips hj hi heq.1
      rw [← hu, ← heq.2]
      exact (GoMap.get_eq_some_iff m _ _).2 he
    · intro h
      refine List.mem_map.2 ⟨_, (GoMap.get_eq_some_iff m _ _).1 h, ?_⟩
      simp only [g, mapKey_url ips r hi, Option.getD_some]
  · rw [List.map_map]
    have hn : (m.entries.map (·.1)).Nodup := m.nodup
    have : m.entries.map ((fun e : Str × V => e.1) ∘ g) = (m.entries.map (·.1)).map fun k => (mapKey ips k).getD [] := by
      rw [List.map_map]; rfl
    rw [this]
    refine nodup_map_of_inj _ _ hn ?_
    intro a ha b hb hab
    obtain ⟨ea, hea, rfl⟩ := List.mem_map.1 ha
    obtain ⟨eb, heb, rfl⟩ := List.mem_map.1 hb
    obtain ⟨ra, ia, hia, hua⟩ := hent ea hea
    obtain ⟨rb, ib, hib, hub⟩ := hent eb heb
    rw [hua, hub] at hab ⊢
    simp only [mapKey_url ips ra hia, mapKey_url ips rb hib, Option.getD_some] at hab
    obtain ⟨rfl, rfl⟩ := addr_inj ips hia hib hab
    rfl

/-- C89 for one key file: the entity's id becomes its address, its secrets stay, and the public keys are found under the new
addresses of their owners. -/
theorem mapCrypto_belongs (hK : KeyLaws K) (ips : IPs) {num : Role → Nat} (hnum : ∀ r, num r ≤ 1000) {sec : Role → Nat → L.RsaPriv}
    {bsec : Nat → L.BlsSec} {r : Role} {i : Nat} {s : StoredConfig L} (h : Belongs K Role.url num sec bsec r i s)
    (hs : ∀ k v, (load K s).signPublicMap.get k = some v → ∃ (r : Role) (i : Nat), i < 1000 ∧ k = r.url i)
    (ht : ∀ k v, (load K s).thresholdPublicMap.get k = some v → ∃ (r : Role) (i : Nat), i < 1000 ∧ k = r.url i) :
    ∃ s', mapCrypto K ips (i + 1) s = some s' ∧ Belongs K (fun r i => r.addr ips i) num sec bsec r i s' := by
  have hi : i < 1000 := Nat.lt_of_lt_of_le h.inRange (hnum r)
  have e : ((i : Int) + 1 - 1) = i := by omega
  obtain ⟨hosts, hh1, hh2⟩ := hostsFor_url ips r hi
  obtain ⟨l1, hl1, hg1⟩ := mapEntries ips _ hs
  obtain ⟨l2, hl2, hg2⟩ := mapEntries ips _ ht
  have hself := h.self
  simp only [load] at hself hl1 hl2 hg1 hg2
  let c' : CryptoConfig L := { (newCryptoConfig K s).1 with
    selfID := r.addr ips i, signPublicMap := GoMap.empty.assignAll l1, thresholdPublicMap := GoMap.empty.assignAll l2 }
  refine ⟨newStored K c', ?_, ?_⟩
  · unfold mapCrypto
    simp only [hself, hh1, hl1, hl2, Option.bind_eq_bind, Option.bind_some, e, hh2, withHost_url r hi]
    rfl
  · have hdec : ∀ k v, (newStored K c').thresholdPublicMap.get k = some v → ∃ p, K.pubDe v = some p := by
      intro k v hk
      simp only [newStored, serializePubs_get] at hk
      cases hp : c'.thresholdPublicMap.get k with
      | none => rw [hp] at hk; cases hk
      | some p => rw [hp] at hk; cases hk; exact ⟨p, hK.pub p⟩
    obtain ⟨_, _, _, _, e4, e5, e6, e7, e8, e9, e10⟩ := newCryptoConfig_fields K (newStored K c') hdec
    refine ⟨h.inRange, e6, ⟨?_, ?_⟩, ?_, ?_, ?_, ?_⟩
    · exact e4.trans h.schemes.1
    · exact e5.trans h.schemes.2
    · exact e8.trans h.key
    · intro hr
      have h10 : (load K (newStored K c')).thresholdSecretKey = c'.thresholdSecretKey := by
        show (newCryptoConfig K _).1.thresholdSecretKey = _
        rw [e10]; simp only [newStored, hK.sec, Option.getD_some]
      rw [h10]
      exact h.bls hr
    · intro r' j hj
      show (newCryptoConfig K _).1.signPublicMap.get _ = _
      rw [e7]
      show c'.signPublicMap.get _ = _
      simp only [c', hg1 r' j (Nat.lt_of_lt_of_le hj (hnum r'))]
      exact h.pubs r' j hj
    · intro j hj
      show (newCryptoConfig K _).1.thresholdPublicMap.get _ = _
      rw [e9]
      simp only [newStored, serializePubs_get, c', hg2 .gossiper j (Nat.lt_of_lt_of_le hj (hnum _))]
      have := h.bpubs j hj
      simp only [load] at this
      rw [this]
      simp only [Option.map_some, Option.bind_some, hK.pub]

theorem mapM_exists {α β : Type} (f : α → Option β) (P : α → β → Prop) (l : List α) (h : ∀ a ∈ l, ∃ b, f a = some b ∧ P a b) :
    ∃ r, l.mapM f = some r ∧ r.length = l.length ∧ ∀ (i : Nat) b, r[i]? = some b → ∃ a, l[i]? = some a ∧ P a b := by
  induction l with
  | nil => exact ⟨[], rfl, rfl, by intro i b h; simp at h⟩
  | cons a t ih =>
    obtain ⟨b, hb, hP⟩ := h a (by simp)
    obtain ⟨r, h1, h2, h3⟩ := ih fun x hx => h x (List.mem_cons_of_mem _ hx)
    refine ⟨b :: r, by rw [List.mapM_cons, hb, h1]; rfl, by simp [h2], ?_⟩
    intro i c hc
    cases i with
    | zero => cases hc; exact ⟨a, rfl, hP⟩
    | succ n => exact h3 n c hc

theorem bind3 {A B C D : Type} {x : Option A} {y : Option B} {z : Option C} (mk : A → B → C → D) {a : A} {b : B} {c : C}
    (hx : x = some a) (hy : y = some b) (hz : z = some c) : (do some (mk (← x) (← y) (← z))) = some (mk a b c) := by
  subst hx; subst hy; subst hz; rfl

theorem zipIdx_get {α : Type} {l : List α} {i : Nat} {e : α × Nat} (h : l.zipIdx[i]? = some e) : l[i]? = some e.1 ∧ e.2 = i := by
  rw [List.getElem?_zipIdx] at h
  cases hl : l[i]? with
  | none => rw [hl] at h; cases h
  | some x => rw [hl] at h; cases h; exact ⟨rfl, by simp⟩

/-- C89: after the mapping of a generated deployment, every entity's id is its address (its IP and its port) and the key
files still fit together. -/
theorem C89_mapped_deployment_interoperates (hK : KeyLaws K) (rsa : L.RsaLaws K.rsaPub) (bls : L.BlsLaws K.blsPub) (ips : IPs)
    (numG threshold numL numCA numCert : Nat) (hg : 2 ≤ numG) (hg' : numG ≤ 1000) (hl : 0 < numL) (hl' : numL ≤ 1000)
    (hc : numCA ≤ 1000) (hid : ∀ i, i < numG → K.blsIdOk (Role.gossiper.url i) = true) :
    ∃ d d', generateAll K numG threshold numL numCA numCert = some d ∧ mapAll K ips d = some d' ∧
      (∀ i f, d'.cas[i]? = some f → (load K f.crypto).selfID = Role.ca.addr ips i) ∧
      (∀ i f, d'.loggers[i]? = some f → (load K f.crypto).selfID = Role.logger.addr ips i) ∧
      (∀ i f, d'.monitors[i]? = some f → (load K f.crypto).selfID = Role.monitor.addr ips i) ∧
      (∀ i f, d'.gossipers[i]? = some f → (load K f.crypto).selfID = Role.gossiper.addr ips i) ∧
      d'.cas.length = numCA ∧ d'.loggers.length = numL ∧ d'.monitors.length = numG ∧ d'.gossipers.length = numG ∧
      Interoperates K d' := by
  obtain ⟨d, rsaPubs, sec, blsPubs, blsSec, h0, hd, h1, h2, h3, h4, h5⟩ :=
    generateAll_spec K hK numG threshold numL numCA numCert hg hg' hl hl' hc hid
  have hco := coherent_of_generated K hK hd h1 h3 h5
  obtain ⟨conn, hconn, hgo⟩ := hd.gossipers
  have hnum : ∀ r, numOf numG numL numCA r ≤ 1000 := by intro r; cases r <;> assumption
  have hent : ∀ u ∈ entities numG numL numCA, ∃ (r : Role) (i : Nat), i < 1000 ∧ u = r.url i := by
    intro u hu
    obtain ⟨r, i, hi, h⟩ := mem_entities.1 hu
    exact ⟨r, i, Nat.lt_of_lt_of_le hi (hnum r), h⟩
  have hkeysS : ∀ u k bs a v, (load K (cryptoFor numG threshold u rsaPubs k blsPubs bs)).signPublicMap.get a = some v →
      ∃ (r : Role) (i : Nat), i < 1000 ∧ a = r.url i := by
    intro u k bs a v h
    have e7 := (newCryptoConfig_fields K (cryptoFor numG threshold u rsaPubs k blsPubs bs) h3).2.2.2.2.2.2.2.1
    simp only [load] at h
    rw [e7] at h
    exact hent a (h2 a v h)
  have hkeysT : ∀ u k bs a v, (load K (cryptoFor numG threshold u rsaPubs k blsPubs bs)).thresholdPublicMap.get a = some v →
      ∃ (r : Role) (i : Nat), i < 1000 ∧ a = r.url i := by
    intro u k bs a v h
    have e9 := (newCryptoConfig_fields K (cryptoFor numG threshold u rsaPubs k blsPubs bs) h3).2.2.2.2.2.2.2.2.2.1 a
    simp only [load] at h
    rw [e9] at h
    cases hb : blsPubs.get a with
    | none => simp only [cryptoFor, hb, Option.bind_none] at h; cases h
    | some w =>
      refine hent a ?_
      simp only [entities, List.mem_append]
      exact .inl (.inl (.inl (h4 a w hb)))
  have hpub := C70_public_configs_partial ips numCA numL numG hc hl' hg'
  -- the four groups
  obtain ⟨cas, hm1, hn1, hb1⟩ := mapM_exists (fun (f : Files L RolePub CAPriv × Nat) => do
      some (⟨← mapRolePub ips f.1.pub, ← mapCAPriv ips (f.2 + 1) f.1.priv, ← mapCrypto K ips (f.2 + 1) f.1.crypto⟩ : Files L RolePub CAPriv))
    (fun e f => Belongs K (fun r i => r.addr ips i) (numOf numG numL numCA) (fun r i => sec (r.url i))
      (fun i => blsSec (Role.gossiper.url i)) .ca e.2 f.crypto) d.cas.zipIdx (by
    rintro ⟨f, i⟩ hf
    have hfi : d.cas[i]? = some f := List.mem_zipIdx_iff_getElem?.1 hf
    have hB := hco.cas.2 i f hfi
    rw [hd.cas] at hfi
    obtain ⟨hi, rfl⟩ := range_map_get hfi
    obtain ⟨s', hs', hB'⟩ := mapCrypto_belongs K hK ips hnum hB (hkeysS _ _ _) (hkeysT _ _ _)
    have hm := Nat.mod_lt i hl
    exact ⟨_, bind3 Files.mk hpub.1
      (C70_ca_private_partial ips numG i (i % numL) (numL - 1 - i % numL) hg' (by omega) (by omega) (by omega) _ _) hs', hB'⟩)
  obtain ⟨logs, hm2, hn2, hb2⟩ := mapM_exists (fun (f : Files L RolePub LoggerPriv × Nat) => do
      some (⟨← mapRolePub ips f.1.pub, ← mapLoggerPriv ips (f.2 + 1) f.1.priv, ← mapCrypto K ips (f.2 + 1) f.1.crypto⟩ : Files L RolePub LoggerPriv))
    (fun e f => Belongs K (fun r i => r.addr ips i) (numOf numG numL numCA) (fun r i => sec (r.url i))
      (fun i => blsSec (Role.gossiper.url i)) .logger e.2 f.crypto) d.loggers.zipIdx (by
    rintro ⟨f, i⟩ hf
    have hfi : d.loggers[i]? = some f := List.mem_zipIdx_iff_getElem?.1 hf
    have hB := hco.loggers.2 i f hfi
    rw [hd.loggers] at hfi
    obtain ⟨hi, rfl⟩ := range_map_get hfi
    obtain ⟨s', hs', hB'⟩ := mapCrypto_belongs K hK ips hnum hB (hkeysS _ _ _) (hkeysT _ _ _)
    exact ⟨_, bind3 Files.mk hpub.1 (C70_logger_private_partial ips numCA numG i hg' (by omega) _) hs', hB'⟩)
  obtain ⟨mons, hm3, hn3, hb3⟩ := mapM_exists (fun (f : Files L RolePub MonitorPriv × Nat) => do
      some (⟨← mapRolePub ips f.1.pub, ← mapMonitorPriv ips (f.2 + 1) f.1.priv, ← mapCrypto K ips (f.2 + 1) f.1.crypto⟩ : Files L RolePub MonitorPriv))
    (fun e f => Belongs K (fun r i => r.addr ips i) (numOf numG numL numCA) (fun r i => sec (r.url i))
      (fun i => blsSec (Role.gossiper.url i)) .monitor e.2 f.crypto) d.monitors.zipIdx (by
    rintro ⟨f, i⟩ hf
    have hfi : d.monitors[i]? = some f := List.mem_zipIdx_iff_getElem?.1 hf
    have hB := hco.monitors.2 i f hfi
    rw [hd.monitors] at hfi
    obtain ⟨hi, rfl⟩ := range_map_get hfi
    obtain ⟨s', hs', hB'⟩ := mapCrypto_belongs K hK ips hnum hB (hkeysS _ _ _) (hkeysT _ _ _)
    exact ⟨_, bind3 Files.mk hpub.1 (C70_monitor_private_partial ips numCA numL i hc hl' (by omega) _ _) hs', hB'⟩)
  obtain ⟨gos, hm4, hn4, hb4⟩ := mapM_exists (fun (f : Files L GossiperPub GossiperPriv × Nat) => do
      some (⟨← mapGossiperPub ips f.1.pub, ← mapGossiperPriv ips (f.2 + 1) f.1.priv, ← mapCrypto K ips (f.2 + 1) f.1.crypto⟩ : Files L GossiperPub GossiperPriv))
    (fun e f => Belongs K (fun r i => r.addr ips i) (numOf numG numL numCA) (fun r i => sec (r.url i))
      (fun i => blsSec (Role.gossiper.url i)) .gossiper e.2 f.crypto) d.gossipers.zipIdx (by
    rintro ⟨f, i⟩ hf
    have hfi : d.gossipers[i]? = some f := List.mem_zipIdx_iff_getElem?.1 hf
    have hB := hco.gossipers.2 i f hfi
    rw [hgo] at hfi
    obtain ⟨hi, rfl⟩ := range_map_get hfi
    obtain ⟨s', hs', hB'⟩ := mapCrypto_belongs K hK ips hnum hB (hkeysS _ _ _) (hkeysT _ _ _)
    obtain ⟨js, hjs, hci⟩ := hconn i hi
    have hpr := C70_gossiper_private_partial ips i js (fun j hj => Nat.lt_of_lt_of_le (hjs j hj) hg') (by omega)
      (portGossiper ++ portPostfix i)
    rw [← hci] at hpr
    exact ⟨_, bind3 Files.mk hpub.2 hpr hs', hB'⟩)
  have hzl : ∀ {α : Type} (l : List α), l.zipIdx.length = l.length := fun l => List.length_zipIdx
  have hco' : Coherent K (fun r i => r.addr ips i) (numOf numG numL numCA) (fun r i => sec (r.url i))
      (fun i => blsSec (Role.gossiper.url i)) ⟨cas, logs, mons, gos⟩ := by
    refine ⟨⟨by rw [hn1, hzl]; exact hco.cas.1, fun i f hf => ?_⟩, ⟨by rw [hn2, hzl]; exact hco.loggers.1, fun i f hf => ?_⟩,
      ⟨by rw [hn3, hzl]; exact hco.monitors.1, fun i f hf => ?_⟩, ⟨by rw [hn4, hzl]; exact hco.gossipers.1, fun i f hf => ?_⟩⟩
    · obtain ⟨e, he, hb⟩ := hb1 i f hf
      rw [(zipIdx_get he).2] at hb; exact hb
    · obtain ⟨e, he, hb⟩ := hb2 i f hf
      rw [(zipIdx_get he).2] at hb; exact hb
    · obtain ⟨e, he, hb⟩ := hb3 i f hf
      rw [(zipIdx_get he).2] at hb; exact hb
    · obtain ⟨e, he, hb⟩ := hb4 i f hf
      rw [(zipIdx_get he).2] at hb; exact hb
  refine ⟨d, ⟨cas, logs, mons, gos⟩, h0, ?_, fun i f hf => (hco'.cas.2 i f hf).self, fun i f hf => (hco'.loggers.2 i f hf).self,
    fun i f hf => (hco'.monitors.2 i f hf).self, fun i f hf => (hco'.gossipers.2 i f hf).self, hco'.cas.1, hco'.loggers.1,
    hco'.monitors.1, hco'.gossipers.1, hco'.interoperates K rsa bls⟩
  unfold mapAll
  rw [hm1, hm2, hm3, hm4]
  rfl

/-- After the mapping no two entities share an id, even if they share IPs. -/
theorem C89_addresses_unique (ips : IPs) {r r' : Role} {i j : Nat} (hi : i < 1000) (hj : j < 1000)
    (hne : (r, i) ≠ (r', j)) : r.addr ips i ≠ r'.addr ips j := by
  intro h
  obtain ⟨rfl, rfl⟩ := addr_inj ips hi hj h
  exact hne rfl

end Deploy

/-! ### Concrete cases -/

/-- Two CAs, two loggers, three monitors and gossipers. -/
def gen32 : Option (Deployment Ref.lib) := generateAll Ref.keys 3 2 2 2 5

example : ∃ d d', generateAll Ref.keys 3 2 2 2 5 = some d ∧ mapAll Ref.keys testIPs d = some d' ∧ Interoperates Ref.keys d' := by
  obtain ⟨d, d', h, h', _, _, _, _, _, _, _, _, h''⟩ := C89_mapped_deployment_interoperates Ref.keys Ref.keyLaws Ref.rsaLaws Ref.blsLaws
    testIPs 3 2 2 2 5 (by omega) (by omega) (by omega) (by omega) (by omega) (fun i hi => by
      show decide ((Role.gossiper.url i).length ≤ 32) = true
      simp [Role.url, portPostfix_length (show i < 1000 by omega)])
  exact ⟨d, d', h, h', h''⟩

/-- The ids before and after. -/
def idsOf (d : Option (Deployment Ref.lib)) : Option (List Str) := d.map fun d => d.configs.map (·.selfID)

example : idsOf gen32 = some [go!"localhost:6000", go!"localhost:6001", go!"localhost:7000", go!"localhost:7001",
    go!"localhost:8000", go!"localhost:8001", go!"localhost:8002", go!"localhost:9000", go!"localhost:9001", go!"localhost:9002"] ∧
    idsOf (gen32.bind (mapAll Ref.keys testIPs)) = some [go!"172.30.0.11:6000", go!"172.30.0.12:6001", go!"172.30.0.15:7000",
      go!"172.30.0.16:7001", go!"172.30.0.19:8000", go!"172.30.0.20:8001", go!"172.30.0.21:8002", go!"172.30.0.19:9000",
      go!"172.30.0.20:9001", go!"172.30.0.21:9002"] := by decide +kernel

/-- A single gossiper: generation goes through, but nobody accepts its fragments. -/
def oneGossiper : Option (List Bool) :=
  (generateAll Ref.keys 1 1 1 1 5).map fun d => d.configs.map fun b => decide (d.gossipers.any fun f =>
    decide ((load Ref.keys b).fragmentVerify (go!"m") ((load Ref.keys f.crypto).thresholdSign (go!"m")).1 = .ok))

example : oneGossiper = some [false, false, false, false] := by decide +kernel

end Gen
end CTng
