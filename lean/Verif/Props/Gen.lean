import Verif.Model.Gen
import Verif.Props.CryptoIO
import Verif.Props.Util
/- C68-C71, C87-C89: generated configurations, their mapping to IP addresses, and stored key material. -/
set_option autoImplicit false

namespace CTng
namespace Gen

/-! ### Helpers -/

theorem portPostfix_eq (n : Nat) (h : n < 1000) :
    portPostfix n = [UInt8.ofNat (48 + n / 100), UInt8.ofNat (48 + n / 10 % 10), UInt8.ofNat (48 + n % 10)] := by
  unfold portPostfix
  by_cases h1 : n < 10
  · rw [if_pos h1, itoa, if_pos h1]
    have a : n / 100 = 0 := by omega
    have b : n / 10 % 10 = 0 := by omega
    have c : n % 10 = n := by omega
    rw [a, b, c]; rfl
  · rw [if_neg h1]
    by_cases h2 : n < 100
    · rw [if_pos h2, itoa, if_neg h1, itoa, if_pos (by omega)]
      have a : n / 100 = 0 := by omega
      have b : n / 10 % 10 = n / 10 := by omega
      rw [a, b]; rfl
    · rw [if_neg h2, if_pos h, itoa, if_neg h1, itoa, if_neg (by omega), itoa, if_pos (by omega)]
      have a : n / 10 / 10 = n / 100 := by omega
      rw [a]; rfl

theorem u8_digit {a b : Nat} (ha : a < 10) (hb : b < 10) (h : UInt8.ofNat (48 + a) = UInt8.ofNat (48 + b)) : a = b := by
  have := congrArg UInt8.toNat h
  simp only [UInt8.toNat_ofNat'] at this
  omega

theorem portPostfix_inj {m n : Nat} (hm : m < 1000) (hn : n < 1000) (h : portPostfix m = portPostfix n) : m = n := by
  rw [portPostfix_eq m hm, portPostfix_eq n hn] at h
  simp only [List.cons.injEq, and_true] at h
  have a := u8_digit (by omega) (by omega) h.1
  have b := u8_digit (by omega) (by omega) h.2.1
  have c := u8_digit (by omega) (by omega) h.2.2
  omega

theorem portPostfix_length {n : Nat} (h : n < 1000) : (portPostfix n).length = 3 := by rw [portPostfix_eq n h]; rfl

theorem mem_urlList {pre u : Str} {n : Nat} : u ∈ urlList pre n ↔ ∃ i, i < n ∧ u = pre ++ portPostfix i := by
  simp only [urlList, List.mem_map, List.mem_range]
  constructor
  · rintro ⟨i, h, rfl⟩; exact ⟨i, h, rfl⟩
  · rintro ⟨i, h, rfl⟩; exact ⟨i, h, rfl⟩

theorem urlList_getElem (pre : Str) (n i : Nat) : (urlList pre n)[i]? = if i < n then some (pre ++ portPostfix i) else none := by
  simp only [urlList, List.getElem?_map, List.getElem?_range]
  split
  · rename_i h; simp [List.getElem?_range h]
  · rename_i h; simp [List.getElem?_eq_none, h]

theorem urlList_length (pre : Str) (n : Nat) : (urlList pre n).length = n := by simp [urlList]

theorem urlList_nodup (pre : Str) (n : Nat) (h : n ≤ 1000) : (urlList pre n).Nodup := by
  unfold urlList
  rw [List.nodup_iff_pairwise_ne, List.pairwise_map]
  have := List.nodup_range (n := n)
  rw [List.nodup_iff_pairwise_ne] at this
  refine List.Pairwise.imp_of_mem ?_ this
  intro a b ha hb hab he
  have := List.append_cancel_left he
  exact hab (portPostfix_inj (by have := List.mem_range.1 ha; omega) (by have := List.mem_range.1 hb; omega) this)

theorem mapM_some {α β : Type} (f : α → Option β) (g : α → β) (l : List α) (h : ∀ a ∈ l, f a = some (g a)) :
    l.mapM f = some (l.map g) := by
  induction l with
  | nil => rfl
  | cons a t ih =>
    rw [List.mapM_cons, h a (by simp), ih (fun b hb => h b (List.mem_cons_of_mem _ hb))]
    rfl

theorem nodup_map_of_inj {α β : Type} (f : α → β) (l : List α) (hn : l.Nodup)
    (h : ∀ a ∈ l, ∀ b ∈ l, f a = f b → a = b) : (l.map f).Nodup := by
  rw [List.nodup_iff_pairwise_ne, List.pairwise_map]
  rw [List.nodup_iff_pairwise_ne] at hn
  exact List.Pairwise.imp_of_mem (fun ha hb hab he => hab (h _ ha _ hb he)) hn

theorem url_inj {pre pre' : Str} {i j : Nat} (hp : pre.length = pre'.length) (hi : i < 1000) (hj : j < 1000)
    (h : pre ++ portPostfix i = pre' ++ portPostfix j) : pre = pre' ∧ i = j := by
  obtain ⟨h1, h2⟩ := List.append_inj h hp
  exact ⟨h1, portPostfix_inj hi hj h2⟩

/-! ### C68: addresses -/

theorem disjoint_lists {pre pre' : Str} (hp : pre.length = pre'.length) (hne : pre ≠ pre') {n m : Nat} (hn : n ≤ 1000)
    (hm : m ≤ 1000) : ∀ u ∈ urlList pre n, u ∉ urlList pre' m := by
  intro u hu hu'
  obtain ⟨i, hi, rfl⟩ := mem_urlList.1 hu
  obtain ⟨j, hj, h⟩ := mem_urlList.1 hu'
  exact hne (url_inj hp (by omega) (by omega) h).1

/-- C68: up to 1000 entities per role, no two generated entities share a URL. -/
theorem C68_addresses_unique (numMG numCA numL : Nat) (hg : numMG ≤ 1000) (hc : numCA ≤ 1000) (hl : numL ≤ 1000) :
    (urlList prefixGossiper numMG ++ urlList prefixMonitor numMG ++ urlList prefixCA numCA ++ urlList prefixLogger numL).Nodup := by
  have d1 := disjoint_lists (pre := prefixGossiper) (pre' := prefixMonitor) rfl (by decide) hg hg
  have d2 := disjoint_lists (pre := prefixGossiper) (pre' := prefixCA) rfl (by decide) hg hc
  have d3 := disjoint_lists (pre := prefixGossiper) (pre' := prefixLogger) rfl (by decide) hg hl
  have d4 := disjoint_lists (pre := prefixMonitor) (pre' := prefixCA) rfl (by decide) hg hc
  have d5 := disjoint_lists (pre := prefixMonitor) (pre' := prefixLogger) rfl (by decide) hg hl
  have d6 := disjoint_lists (pre := prefixCA) (pre' := prefixLogger) rfl (by decide) hc hl
  rw [List.nodup_append, List.nodup_append, List.nodup_append]
  refine ⟨⟨⟨urlList_nodup _ _ hg, urlList_nodup _ _ hg, ?_⟩, urlList_nodup _ _ hc, ?_⟩, urlList_nodup _ _ hl, ?_⟩
  · intro a ha b hb hab; subst hab; exact d1 _ ha hb
  · intro a ha b hb hab
    subst hab
    rcases List.mem_append.1 ha with ha | ha
    · exact d2 _ ha hb
    · exact d4 _ ha hb
  · intro a ha b hb hab
    subst hab
    rcases List.mem_append.1 ha with ha | ha
    · rcases List.mem_append.1 ha with ha | ha
      · exact d3 _ ha hb
      · exact d5 _ ha hb
    · exact d6 _ ha hb

/-- The bound of C68 is needed: from 1002 entities of one role on, two share a URL (numbers 1000 and 1001 get no digits). -/
theorem C68_bound_is_sharp (pre : Str) (n : Nat) (h : 1002 ≤ n) : ¬ (urlList pre n).Nodup := by
  intro hn
  have h1 : (urlList pre n)[1000]? = some pre := by
    rw [urlList_getElem, if_pos (by omega)]; simp [portPostfix]
  have h2 : (urlList pre n)[1001]? = some pre := by
    rw [urlList_getElem, if_pos (by omega)]; simp [portPostfix]
  have := (List.getElem?_inj (by rw [urlList_length]; omega) hn).1 (h1.trans h2.symm)
  omega

example : urlList prefixGossiper 3 = [go!"localhost:9000", go!"localhost:9001", go!"localhost:9002"] := by decide +kernel
example : portPostfix 7 = go!"007" ∧ portPostfix 42 = go!"042" ∧ portPostfix 999 = go!"999" ∧ portPostfix 1000 = [] := by
  decide +kernel

/-! ### C69: topology -/

theorem mem_zipIdx_url {pre : Str} {n : Nat} {e : Str × Nat} (h : e ∈ (urlList pre n).zipIdx) :
    e.2 < n ∧ e.1 = pre ++ portPostfix e.2 := by
  obtain ⟨u, i⟩ := e
  have := List.mem_zipIdx_iff_getElem?.1 h
  simp only [urlList_getElem] at this
  split at this
  · rename_i hi
    exact ⟨hi, (Option.some.inj this).symm⟩
  · cases this

theorem zipIdx_url_mem {pre : Str} {n i : Nat} (h : i < n) : (pre ++ portPostfix i, i) ∈ (urlList pre n).zipIdx := by
  rw [List.mem_zipIdx_iff_getElem?, urlList_getElem, if_pos h]

/-- C69: every generated gossiper is connected to each other gossiper exactly once and not to itself, and is owned by the
monitor with its number. -/
theorem C69_gossipers_complete (n : Nat) (hn : n ≤ 1000) :
    ∃ m, gossiperPrivMap (urlList prefixGossiper n) (urlList prefixMonitor n) = some m ∧
      ∀ i, i < n → ∃ p, m.get (prefixGossiper ++ portPostfix i) = some p ∧ p.ownerURL = prefixMonitor ++ portPostfix i ∧
        p.port = portGossiper ++ portPostfix i ∧ p.connected.Nodup ∧ p.connected.length = n - 1 ∧
        ∀ u, u ∈ p.connected ↔ ∃ j, j < n ∧ j ≠ i ∧ u = prefixGossiper ++ portPostfix j := by
  let Gs := urlList prefixGossiper n
  let g : Str × Nat → Str × GossiperPriv := fun g => (g.1,
      { connected := (Gs.zipIdx.filter fun h => g.2 ≠ h.2).map (·.1), ownerURL := prefixMonitor ++ portPostfix g.2,
        port := portGossiper ++ portPostfix g.2 })
  have hm : (Gs.zipIdx.mapM fun g => (urlList prefixMonitor n)[g.2]?.map fun m => (g.1,
      { connected := (Gs.zipIdx.filter fun h => g.2 ≠ h.2).map (·.1), ownerURL := m,
        port := portGossiper ++ portPostfix g.2 : GossiperPriv })) = some (Gs.zipIdx.map g) := by
    refine mapM_some _ _ _ fun e he => ?_
    rw [urlList_getElem, if_pos (mem_zipIdx_url he).1]
    rfl
  refine ⟨_, by unfold gossiperPrivMap; rw [show urlList prefixGossiper n = Gs from rfl, hm]; rfl, ?_⟩
  have hnd : ((Gs.zipIdx.map g).map (·.1)).Nodup := by
    have : (Gs.zipIdx.map g).map (·.1) = Gs := by
      rw [List.map_map]
      have e : ((fun e : Str × GossiperPriv => e.1) ∘ g) = Prod.fst := rfl
      rw [e, List.zipIdx_map_fst]
    rw [this]
    exact urlList_nodup _ _ hn
  intro i hi
  have hfil : ((Gs.zipIdx.filter fun h => i ≠ h.2).map (·.1)).Nodup :=
    List.Sublist.nodup ((List.filter_sublist).map _) (by rw [List.zipIdx_map_fst]; exact urlList_nodup _ _ hn)
  have hmem : ∀ u, u ∈ (Gs.zipIdx.filter fun h => i ≠ h.2).map (·.1) ↔ ∃ j, j < n ∧ j ≠ i ∧ u = prefixGossiper ++ portPostfix j := by
    intro u
    simp only [List.mem_map, List.mem_filter, decide_eq_true_eq]
    constructor
    · rintro ⟨e, ⟨he, hne⟩, rfl⟩
      obtain ⟨h1, h2⟩ := mem_zipIdx_url he
      exact ⟨e.2, h1, fun h => hne h.symm, h2⟩
    · rintro ⟨j, hj, hne, rfl⟩
      exact ⟨(_, j), ⟨zipIdx_url_mem hj, fun h => hne h.symm⟩, rfl⟩
  refine ⟨(g (prefixGossiper ++ portPostfix i, i)).2, (assignAll_get _ hnd _ _).2 ?_, rfl, rfl, hfil, ?_, hmem⟩
  · exact List.mem_map.2 ⟨_, zipIdx_url_mem hi, rfl⟩
  · show ((Gs.zipIdx.filter fun h => i ≠ h.2).map (·.1)).length = n - 1
    have hp : ((Gs.zipIdx.filter fun h => i ≠ h.2).map (·.1)).Perm (Gs.erase (prefixGossiper ++ portPostfix i)) := by
      rw [List.perm_ext_iff_of_nodup hfil ((urlList_nodup _ _ hn).erase _)]
      intro u
      rw [hmem, (urlList_nodup _ _ hn).mem_erase_iff, mem_urlList]
      constructor
      · rintro ⟨j, hj, hne, rfl⟩
        exact ⟨fun h => hne (url_inj rfl (by omega) (by omega) h).2, j, hj, rfl⟩
      · rintro ⟨h, j, hj, rfl⟩
        exact ⟨j, hj, fun e => h (by rw [e]), rfl⟩
    rw [hp.length_eq, List.length_erase_of_mem (mem_urlList.2 ⟨i, hi, rfl⟩), urlList_length]

theorem caPriv_eq (Gs Ms : List Str) (numL numCert i : Nat) (hl : 0 < numL) :
    caPriv Gs Ms (urlList prefixLogger numL) numCert i = some
      { signer := prefixCA ++ portPostfix i, port := portCA ++ portPostfix i,
        loggers := [prefixLogger ++ portPostfix (i % numL), prefixLogger ++ portPostfix (numL - 1 - i % numL)],
        monitors := Ms, gossipers := Gs, certPerPeriod := numCert } := by
  have h1 := Nat.mod_lt i hl
  unfold caPriv
  rw [urlList_length, urlList_getElem, urlList_getElem, if_pos h1, if_pos (by omega)]

theorem caPrivMap_get (Gs Ms : List Str) (numCA numL numCert : Nat) (hc : numCA ≤ 1000) (hl : 0 < numL) :
    ∃ m, caPrivMap Gs Ms (urlList prefixLogger numL) numCA numCert = some m ∧ ∀ i, i < numCA →
      m.get (prefixCA ++ portPostfix i) = caPriv Gs Ms (urlList prefixLogger numL) numCert i := by
  let g : Nat → CAPriv := fun i =>
      { signer := prefixCA ++ portPostfix i, port := portCA ++ portPostfix i,
        loggers := [prefixLogger ++ portPostfix (i % numL), prefixLogger ++ portPostfix (numL - 1 - i % numL)],
        monitors := Ms, gossipers := Gs, certPerPeriod := numCert }
  refine ⟨_, by unfold caPrivMap; rw [mapM_some _ g _ fun a _ => caPriv_eq Gs Ms numL numCert a hl]; rfl, ?_⟩
  intro i hi
  rw [caPriv_eq _ _ _ _ _ hl]
  refine (assignAll_get _ ?_ _ _).2 ?_
  · rw [List.map_map, List.map_map]
    exact urlList_nodup prefixCA numCA hc
  · exact List.mem_map.2 ⟨g i, List.mem_map_of_mem (List.mem_range.2 hi), rfl⟩

/-- C69, what holds for CAs: CA `i` is given two different generated loggers, unless `i` modulo the number of loggers is the
middle of the logger list. -/
theorem C69_ca_loggers_partial (Gs Ms : List Str) (numCA numL numCert : Nat) (hc : numCA ≤ 1000) (hl : 0 < numL)
    (hl' : numL ≤ 1000) : ∃ m, caPrivMap Gs Ms (urlList prefixLogger numL) numCA numCert = some m ∧ ∀ i, i < numCA →
      ∃ p a b, m.get (prefixCA ++ portPostfix i) = some p ∧ p.loggers = [a, b] ∧ a ∈ urlList prefixLogger numL ∧
        b ∈ urlList prefixLogger numL ∧ (2 * (i % numL) + 1 ≠ numL → a ≠ b) := by
  obtain ⟨m, hm, hget⟩ := caPrivMap_get Gs Ms numCA numL numCert hc hl
  refine ⟨m, hm, fun i hi => ?_⟩
  have h1 := Nat.mod_lt i hl
  refine ⟨_, _, _, (hget i hi).trans (caPriv_eq _ _ _ _ _ hl), rfl, mem_urlList.2 ⟨_, h1, rfl⟩,
    mem_urlList.2 ⟨_, by omega, rfl⟩, ?_⟩
  intro hne h
  have := (url_inj rfl (by omega) (by omega) h).2
  omega

/-- C69 is false for CAs in general: with an odd number 2k+1 of loggers, CA number k is given the same logger twice. -/
theorem C69_violated_same_logger (Gs Ms : List Str) (numCA k numCert : Nat) (hc : numCA ≤ 1000) (hk : k < numCA) :
    ∃ m p a, caPrivMap Gs Ms (urlList prefixLogger (2 * k + 1)) numCA numCert = some m ∧
      m.get (prefixCA ++ portPostfix k) = some p ∧ p.loggers = [a, a] := by
  obtain ⟨m, hm, hget⟩ := caPrivMap_get Gs Ms numCA (2 * k + 1) numCert hc (by omega)
  have h1 : k % (2 * k + 1) = k := Nat.mod_eq_of_lt (by omega)
  have h2 : 2 * k + 1 - 1 - k = k := by omega
  refine ⟨m, _, prefixLogger ++ portPostfix k, hm, (hget k hk).trans (caPriv_eq _ _ _ _ _ (by omega)), ?_⟩
  simp only [h1, h2]

/-- Without loggers the generation of CA configurations panics. -/
theorem C69_violated_no_loggers (Gs Ms : List Str) (numCA numCert : Nat) :
    caPrivMap Gs Ms (urlList prefixLogger 0) (numCA + 1) numCert = none := by
  unfold caPrivMap
  rw [List.range_succ_eq_map, List.mapM_cons]
  rfl

example : ((gossiperPrivMap (urlList prefixGossiper 3) (urlList prefixMonitor 3)).bind fun m => m.get (go!"localhost:9001")) =
    some ⟨[go!"localhost:9000", go!"localhost:9002"], go!"localhost:8001", go!"9001"⟩ := by decide +kernel

example : ((caPrivMap [] [] (urlList prefixLogger 3) 3 4).map fun m => (List.range 3).map fun i =>
      (m.get (prefixCA ++ portPostfix i)).map (·.loggers)) =
    some [some [go!"localhost:7000", go!"localhost:7002"], some [go!"localhost:7001", go!"localhost:7001"],
      some [go!"localhost:7002", go!"localhost:7000"]] := by decide +kernel

/-! ### C70: mapping to IP addresses -/

/-- The four roles. -/
inductive Role where
  | ca | logger | monitor | gossiper
  deriving DecidableEq, Repr

/-- The first digit of a role's ports. -/
def Role.digit : Role → UInt8
  | .ca => 54
  | .logger => 55
  | .monitor => 56
  | .gossiper => 57

/-- The local URL of an entity. -/
def Role.url (r : Role) (i : Nat) : Str := go!"localhost:" ++ [r.digit] ++ portPostfix i

/-- The IP address configured for an entity. -/
def Role.host (ips : IPs) (r : Role) (i : Nat) : Str :=
  ((match r with | .ca => ips.ca | .logger => ips.logger | .monitor => ips.monitor | .gossiper => ips.gossiper).get (i : Int)).getD []

/-- The address an entity should have after the mapping: its IP, its port. -/
def Role.addr (ips : IPs) (r : Role) (i : Nat) : Str := r.host ips i ++ (go!":" ++ [r.digit] ++ portPostfix i)

theorem last5_url (r : Role) {i : Nat} (hi : i < 1000) : lastN 5 (r.url i) = some (go!":" ++ [r.digit] ++ portPostfix i) := by
  have h : (r.url i).length = 14 := by simp [Role.url, portPostfix_length hi]
  unfold lastN
  rw [if_neg (by omega), h]
  rfl

theorem withHost_url (r : Role) {i : Nat} (hi : i < 1000) (host : Str) :
    withHost host (r.url i) = some (host ++ (go!":" ++ [r.digit] ++ portPostfix i)) := by
  unfold withHost
  rw [last5_url r hi]
  rfl

theorem mapList_urls (r : Role) (ips : IPs) (hosts : GoMap Int Str) (hh : ∀ i : Nat, ipAt hosts i = r.host ips i) (n : Nat)
    (hn : n ≤ 1000) : mapList hosts ((List.range n).map r.url) = some ((List.range n).map (r.addr ips)) := by
  unfold mapList
  have hg : ((List.range n).map r.url).zipIdx.map (fun e => r.addr ips e.2) = (List.range n).map (r.addr ips) := by
    have e1 : (fun e : Str × Nat => r.addr ips e.2) = (r.addr ips) ∘ Prod.snd := rfl
    rw [e1, ← List.map_map, List.zipIdx_map_snd]
    congr 1
    rw [List.length_map, List.length_range, List.range_eq_range']
  rw [mapM_some _ (fun e => r.addr ips e.2) _ ?_, hg]
  intro e he
  obtain ⟨u, i⟩ := e
  have h := List.mem_zipIdx_iff_getElem?.1 he
  simp only [List.getElem?_map] at h
  cases hr : (List.range n)[i]? with
  | none => rw [hr] at h; cases h
  | some j =>
    have hj := List.getElem?_eq_some_iff.1 hr
    obtain ⟨hlt, hj⟩ := hj
    simp only [List.length_range] at hlt
    simp only [List.getElem_range] at hj
    subst hj
    rw [hr] at h
    cases h
    rw [withHost_url r (by omega), hh]
    rfl

theorem urlList_role (r : Role) (pre : Str) (hp : pre = go!"localhost:" ++ [r.digit]) (n : Nat) :
    urlList pre n = (List.range n).map r.url := by
  subst hp; rfl

theorem ca_urls (n : Nat) : urlList prefixCA n = (List.range n).map Role.ca.url := urlList_role .ca _ rfl n
theorem logger_urls (n : Nat) : urlList prefixLogger n = (List.range n).map Role.logger.url := urlList_role .logger _ rfl n
theorem monitor_urls (n : Nat) : urlList prefixMonitor n = (List.range n).map Role.monitor.url := urlList_role .monitor _ rfl n
theorem gossiper_urls (n : Nat) : urlList prefixGossiper n = (List.range n).map Role.gossiper.url := urlList_role .gossiper _ rfl n

/-- C70 for public configurations: every listed entity gets its own IP and keeps its port. -/
theorem C70_public_configs_partial (ips : IPs) (numCA numL numMG : Nat) (hc : numCA ≤ 1000) (hl : numL ≤ 1000) (hm : numMG ≤ 1000) :
    mapRolePub ips ⟨urlList prefixCA numCA, urlList prefixLogger numL⟩ =
      some ⟨(List.range numCA).map (Role.ca.addr ips), (List.range numL).map (Role.logger.addr ips)⟩ ∧
    mapGossiperPub ips ⟨urlList prefixGossiper numMG, urlList prefixMonitor numMG⟩ =
      some ⟨(List.range numMG).map (Role.gossiper.addr ips), (List.range numMG).map (Role.monitor.addr ips)⟩ := by
  unfold mapRolePub mapGossiperPub
  rw [ca_urls, logger_urls, monitor_urls, gossiper_urls, mapList_urls .ca ips _ (fun _ => rfl) _ hc,
    mapList_urls .logger ips _ (fun _ => rfl) _ hl, mapList_urls .gossiper ips _ (fun _ => rfl) _ hm,
    mapList_urls .monitor ips _ (fun _ => rfl) _ hm]
  exact ⟨rfl, rfl⟩

/-- C70 for the private configuration of monitor `i`: every address is right. -/
theorem C70_monitor_private_partial (ips : IPs) (numCA numL i : Nat) (hc : numCA ≤ 1000) (hl : numL ≤ 1000) (hi : i < 1000)
    (inb port : Str) :
    mapMonitorPriv ips (i + 1) ⟨urlList prefixCA numCA, urlList prefixLogger numL, Role.monitor.url i, Role.gossiper.url i, inb, port⟩ =
      some ⟨(List.range numCA).map (Role.ca.addr ips), (List.range numL).map (Role.logger.addr ips), Role.monitor.addr ips i,
        Role.gossiper.addr ips i, inb, port⟩ := by
  have e : ((i : Int) + 1 - 1) = i := by omega
  unfold mapMonitorPriv
  simp only [e, ca_urls, logger_urls, mapList_urls .ca ips _ (fun _ => rfl) _ hc, mapList_urls .logger ips _ (fun _ => rfl) _ hl,
    withHost_url .monitor hi, withHost_url .gossiper hi]
  rfl

/-- C70 for the private configuration of logger `i`: signer, monitors and gossipers are right; the list of CAs keeps its
local URLs. -/
theorem C70_logger_private_partial (ips : IPs) (numCA numMG i : Nat) (hm : numMG ≤ 1000) (hi : i < 1000) (port : Str) :
    mapLoggerPriv ips (i + 1) ⟨Role.logger.url i, port, urlList prefixCA numCA, urlList prefixMonitor numMG, urlList prefixGossiper numMG⟩ =
      some ⟨Role.logger.addr ips i, port, urlList prefixCA numCA, (List.range numMG).map (Role.monitor.addr ips),
        (List.range numMG).map (Role.gossiper.addr ips)⟩ := by
  have e : ((i : Int) + 1 - 1) = i := by omega
  unfold mapLoggerPriv
  simp only [e, monitor_urls, gossiper_urls, mapList_urls .monitor ips _ (fun _ => rfl) _ hm,
    mapList_urls .gossiper ips _ (fun _ => rfl) _ hm, withHost_url .logger hi]
  rfl

/-- C70 for the private configuration of CA `i`: signer, monitors and gossipers are right; each logger keeps its port but
gets the IP of logger number `i`. -/
theorem C70_ca_private_partial (ips : IPs) (numMG i a b : Nat) (hm : numMG ≤ 1000) (hi : i < 1000) (ha : a < 1000) (hb : b < 1000)
    (port : Str) (numCert : Nat) :
    mapCAPriv ips (i + 1) ⟨Role.ca.url i, port, [Role.logger.url a, Role.logger.url b], urlList prefixMonitor numMG,
        urlList prefixGossiper numMG, numCert⟩ =
      some ⟨Role.ca.addr ips i, port,
        [Role.logger.host ips i ++ (go!":7" ++ portPostfix a), Role.logger.host ips i ++ (go!":7" ++ portPostfix b)],
        (List.range numMG).map (Role.monitor.addr ips), (List.range numMG).map (Role.gossiper.addr ips), numCert⟩ := by
  have e : ((i : Int) + 1 - 1) = i := by omega
  unfold mapCAPriv
  simp only [e, monitor_urls, gossiper_urls, mapList_urls .monitor ips _ (fun _ => rfl) _ hm,
    mapList_urls .gossiper ips _ (fun _ => rfl) _ hm, withHost_url .ca hi, withHost_url .logger ha, withHost_url .logger hb,
    List.mapM_cons, List.mapM_nil]
  rfl

theorem addr_host_inj {x y : Str} {d : UInt8} {i : Nat} (h : x ++ (go!":" ++ [d] ++ portPostfix i) = y ++ (go!":" ++ [d] ++ portPostfix i)) :
    x = y := List.append_cancel_right h

/-- C70 is false: whatever the IP table, a CA whose logger runs on another IP than logger number `i` is sent elsewhere. -/
theorem C70_violated_ca_loggers (ips : IPs) (numMG i a b : Nat) (hm : numMG ≤ 1000) (hi : i < 1000) (ha : a < 1000) (hb : b < 1000)
    (port : Str) (numCert : Nat) (hne : Role.logger.host ips a ≠ Role.logger.host ips i) (q : CAPriv)
    (hq : mapCAPriv ips (i + 1) ⟨Role.ca.url i, port, [Role.logger.url a, Role.logger.url b], urlList prefixMonitor numMG,
        urlList prefixGossiper numMG, numCert⟩ = some q) : q.loggers[0]? ≠ some (Role.logger.addr ips a) := by
  rw [C70_ca_private_partial ips numMG i a b hm hi ha hb] at hq
  cases hq
  intro h
  simp only [List.getElem?_cons_zero, Option.some.injEq] at h
  exact hne (addr_host_inj (d := 55) h).symm

/-- C70 is false for loggers: after the mapping none of the CAs' addresses is on the logger's list (unless a CA's IP is
"localhost"). -/
theorem C70_violated_logger_cas (ips : IPs) (numCA numMG i j : Nat) (hm : numMG ≤ 1000) (hi : i < 1000) (hj : j < 1000)
    (hc : numCA ≤ 1000) (port : Str) (hne : Role.ca.host ips j ≠ go!"localhost") (q : LoggerPriv)
    (hq : mapLoggerPriv ips (i + 1) ⟨Role.logger.url i, port, urlList prefixCA numCA, urlList prefixMonitor numMG,
        urlList prefixGossiper numMG⟩ = some q) : Role.ca.addr ips j ∉ q.cas := by
  rw [C70_logger_private_partial ips numCA numMG i hm hi] at hq
  cases hq
  intro h
  obtain ⟨k, hk, h⟩ := mem_urlList.1 h
  have h1 : Role.ca.host ips j ++ (go!":" ++ [Role.ca.digit] ++ portPostfix j) = go!"localhost" ++ (go!":" ++ [Role.ca.digit] ++ portPostfix k) := h
  have hl : (go!":" ++ [Role.ca.digit] ++ portPostfix j).length = (go!":" ++ [Role.ca.digit] ++ portPostfix k).length := by
    simp [portPostfix_length hj, portPostfix_length (show k < 1000 by omega)]
  exact hne (List.append_inj_left' h1 hl)

theorem atoi_portPostfix {i : Nat} (hi : i < 1000) : atoi (portPostfix i) = some i := by
  have hd : ∀ a : Nat, a < 10 → digitVal (UInt8.ofNat (48 + a)) = some a := by
    intro a ha
    have : (UInt8.ofNat (48 + a)).toNat = 48 + a := by rw [UInt8.toNat_ofNat']; omega
    have h1 : (48 : UInt8) ≤ UInt8.ofNat (48 + a) := by
      rw [UInt8.le_iff_toNat_le, this]; show 48 ≤ 48 + a; omega
    have h2 : UInt8.ofNat (48 + a) ≤ 57 := by
      rw [UInt8.le_iff_toNat_le, this]; show 48 + a ≤ 57; omega
    simp only [digitVal, h1, h2, and_self, if_true, this]
    congr 1; omega
  rw [portPostfix_eq i hi]
  simp only [atoi, atoiAux, hd (i / 100) (by omega), hd (i / 10 % 10) (by omega), hd (i % 10) (by omega)]
  simp only [reduceCtorEq, if_false]
  congr 1; omega

theorem atoiIgnore_portPostfix {i : Nat} (hi : i < 1000) : atoiIgnore (portPostfix i) = i := by
  have h0 := atoi_portPostfix hi
  have hne : ∀ a : Nat, a < 10 → UInt8.ofNat (48 + a) ≠ 43 ∧ UInt8.ofNat (48 + a) ≠ 45 := by
    intro a ha
    have : (UInt8.ofNat (48 + a)).toNat = 48 + a := by rw [UInt8.toNat_ofNat']; omega
    constructor <;> intro h <;> rw [h] at this
    · have e : (43 : UInt8).toNat = 43 := rfl
      omega
    · have e : (45 : UInt8).toNat = 45 := rfl
      omega
  rw [portPostfix_eq i hi] at h0 ⊢
  obtain ⟨n1, n2⟩ := hne (i / 100) (by omega)
  unfold atoiIgnore
  split
  · rename_i h; exact absurd (List.cons.inj h).1 n1
  · rename_i h; exact absurd (List.cons.inj h).1 n2
  · rw [h0]; rfl

theorem last3_url (r : Role) {i : Nat} (hi : i < 1000) : lastN 3 (r.url i) = some (portPostfix i) := by
  have h : (r.url i).length = 14 := by simp [Role.url, portPostfix_length hi]
  unfold lastN
  rw [if_neg (by omega), h]
  rfl

/-- C70 for the private configuration of gossiper `i`: every peer gets its own IP and keeps its port; the owner keeps its port
and gets the IP of the gossiper. -/
theorem C70_gossiper_private_partial (ips : IPs) (i : Nat) (js : List Nat) (hj : ∀ j ∈ js, j < 1000) (hi : i < 1000) (port : Str) :
    mapGossiperPriv ips (i + 1) ⟨js.map Role.gossiper.url, Role.monitor.url i, port⟩ =
      some ⟨js.map (Role.gossiper.addr ips), Role.gossiper.host ips i ++ (go!":8" ++ portPostfix i), port⟩ := by
  have e : ((i : Int) + 1 - 1) = i := by omega
  unfold mapGossiperPriv
  have h1 : (js.map Role.gossiper.url).mapM (fun u => do withHost (ipAt ips.gossiper (atoiIgnore (← lastN 3 u))) u) =
      some (js.map (Role.gossiper.addr ips)) := by
    rw [List.mapM_map]
    refine mapM_some _ _ _ fun j hjm => ?_
    have := hj j hjm
    simp only [Function.comp, last3_url .gossiper this, Option.bind_eq_bind, Option.bind_some]
    rw [atoiIgnore_portPostfix this, withHost_url .gossiper this]
    rfl
  rw [h1, e, withHost_url .monitor hi]
  rfl

/-- C70 is false for gossipers: if monitor and gossiper `i` have different IPs, the owner's address is wrong. -/
theorem C70_violated_owner (ips : IPs) (i : Nat) (js : List Nat) (hj : ∀ j ∈ js, j < 1000) (hi : i < 1000) (port : Str)
    (hne : Role.monitor.host ips i ≠ Role.gossiper.host ips i) (q : GossiperPriv)
    (hq : mapGossiperPriv ips (i + 1) ⟨js.map Role.gossiper.url, Role.monitor.url i, port⟩ = some q) :
    q.ownerURL ≠ Role.monitor.addr ips i := by
  rw [C70_gossiper_private_partial ips i js hj hi] at hq
  cases hq
  intro h
  exact hne (addr_host_inj (d := 56) h).symm

theorem template_get (n : Nat) (mask : Str) (off i : Nat) (hi : i < n) :
    (GoMap.empty.assignAll ((List.range n).map fun (i : Nat) => ((i : Int), mask ++ itoa (i + off))) : GoMap Int Str).get (i : Int) =
      some (mask ++ itoa (i + off)) := by
  refine (assignAll_get _ ?_ _ _).2 (List.mem_map.2 ⟨i, List.mem_range.2 hi, rfl⟩)
  rw [List.map_map]
  exact (List.pairwise_map.2 ((List.nodup_range (n := n)).imp fun h e => h (Int.ofNat.inj e)))

/-- C70, the addresses of the template: entity number `i` of a role gets the mask of the role followed by the number `i` plus the
offset, and its port. A monitor and its gossiper get the same IP, so there the owner is right. -/
theorem C70_template_owner_partial (numCA numL numMG : Nat) (caMask : Str) (caOff : Nat) (lMask : Str) (lOff : Nat) (mgMask : Str)
    (mgOff : Nat) (ips : IPs) (h : ips = ipTemplate numCA numL numMG caMask caOff lMask lOff mgMask mgOff) :
    (∀ i, i < numCA → Role.ca.addr ips i = caMask ++ itoa (i + caOff) ++ go!":6" ++ portPostfix i) ∧
    (∀ i, i < numL → Role.logger.addr ips i = lMask ++ itoa (i + lOff) ++ go!":7" ++ portPostfix i) ∧
    (∀ i, i < numMG → Role.monitor.addr ips i = mgMask ++ itoa (i + mgOff) ++ go!":8" ++ portPostfix i ∧
      Role.gossiper.addr ips i = mgMask ++ itoa (i + mgOff) ++ go!":9" ++ portPostfix i) ∧
    ∀ i, Role.monitor.host ips i = Role.gossiper.host ips i := by
  subst h
  refine ⟨fun i hi => ?_, fun i hi => ?_, fun i hi => ⟨?_, ?_⟩, fun i => rfl⟩ <;>
    simp only [Role.addr, Role.host, ipTemplate, template_get _ _ _ _ hi, Option.getD_some, List.append_assoc] <;> rfl

/-- The tables of the test (Gen/Gen_test.go:183). -/
def testIPs : IPs := ipTemplate 4 4 4 (go!"172.30.0.") 11 (go!"172.30.0.") 15 (go!"172.30.0.") 19

example : Role.logger.addr testIPs 2 = go!"172.30.0.17:7002" := by decide +kernel

/-- CA 0 of four should talk to loggers 0 and 3 on .15 and .18; the mapping sends both to .15. -/
example : (mapCAPriv testIPs 1 ⟨Role.ca.url 0, go!"6000", [Role.logger.url 0, Role.logger.url 3], [], [], 4⟩).map (·.loggers) =
    some [go!"172.30.0.15:7000", go!"172.30.0.15:7003"] ∧ Role.logger.addr testIPs 3 = go!"172.30.0.18:7003" := by decide +kernel

end Gen
end CTng
