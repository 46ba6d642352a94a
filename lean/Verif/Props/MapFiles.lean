import Verif.Model.MapFiles
import Verif.Props.Config
/- C144: the address mapping on the files of a generated deployment. -/
set_option autoImplicit false

namespace CTng
namespace Wire
open Gen Json

/-! ### The table of addresses -/

theorem parseInt_itoa (n : Int) (h : GoInt n) : parseInt (itoaInt n) = some n := by
  have key : ∀ s : Str, (∀ c t, s = c :: t → c ≠ 43) → intTok s = some n → parseInt s = some n := by
    intro s hs hi
    have : parseInt s = (intTok s).bind fun n => if -2 ^ 63 ≤ n ∧ n < 2 ^ 63 then some n else none := by
      unfold parseInt intTok
      split
      · next t => exact absurd rfl (hs 43 t rfl)
      · rfl
      · next h1 h2 =>
        split
        · next t => exact absurd rfl (h2 t)
        · rfl
    rw [this, hi]
    exact if_pos h
  refine key _ ?_ (intTok_itoa n)
  rintro c t he rfl
  have hd : ∀ m, ∀ x ∈ itoa m, x ≠ 43 := by
    rintro m x hx rfl
    exact absurd (itoa_digit m 43 hx) (by decide)
  unfold itoaInt at he
  split at he
  · exact absurd (List.cons.inj he).1 (by decide)
  · exact hd n.natAbs 43 (by rw [he]; simp) rfl

theorem itoaInt_ascii (n : Int) : Ascii (itoaInt n) := by
  unfold itoaInt
  split
  · exact ascii_append (ascii_lit (by decide)) (itoa_ascii _)
  · exact itoa_ascii _

theorem jMap_list {V : Type} (f : V → Json) (m : GoMap Str V) :
    ∃ l : List (Str × V), jMap f m = .obj (l.map fun e => (e.1, f e.2)) ∧ (l.map (·.1)).Nodup ∧ ∀ k v, (k, v) ∈ l ↔ m.get k = some v := by
  refine ⟨(sortStr m.keys).filterMap fun k => (m.get k).map fun v => (k, v), ?_, ?_, ?_⟩
  · unfold jMap
    congr 1
    rw [List.map_filterMap]
    congr 1
    funext k
    cases m.get k <;> rfl
  · have : ((sortStr m.keys).filterMap fun k => (m.get k).map fun v => (k, v)).map (·.1) = sortStr m.keys := by
      rw [List.map_filterMap]
      have : ∀ q : List Str, (∀ k ∈ q, (m.get k).isSome = true) →
          (q.filterMap fun k => Option.map (·.1) ((m.get k).map fun v => (k, v))) = q := by
        intro q
        induction q with
        | nil => intro _; rfl
        | cons a t ih =>
          intro hq
          obtain ⟨v, hv⟩ := Option.isSome_iff_exists.1 (hq a (by simp))
          rw [List.filterMap_cons, hv]
          simp only [Option.map_some]
          rw [ih fun k hk => hq k (by simp [hk])]
      exact this _ fun k hk => Option.isSome_iff_exists.2 ((GoMap.mem_keys_iff m k).1 ((sortStr_perm _).mem_iff.1 hk))
    rw [this]
    exact (sortStr_perm _).nodup_iff.2 m.nodup
  · intro k v
    simp only [List.mem_filterMap, Option.map_eq_some_iff, Prod.mk.injEq]
    constructor
    · rintro ⟨a, _, b, h1, rfl, rfl⟩; exact h1
    · intro h1
      exact ⟨k, (sortStr_perm _).mem_iff.2 ((GoMap.mem_keys_iff m k).2 ⟨v, h1⟩), v, h1, rfl, rfl⟩

theorem foldl_intMap : ∀ (l : List (Int × Str)) (m : GoMap Int Str), (∀ e ∈ l, GoInt e.1 ∧ Utf8 e.2) →
    (cleanMembers (l.map fun e => (itoaInt e.1, .str e.2))).foldl (fun acc m =>
      match parseInt m.1 with
      | some k => let r := dStr [] m.2; (acc.1.set k r.1, acc.2 && r.2)
      | none => (acc.1, false)) (m, true) = (m.assignAll l, true) := by
  intro l
  induction l with
  | nil => intro m _; rfl
  | cons e t ih =>
    intro m h
    obtain ⟨h1, h2⟩ := h e (by simp)
    have ha : Utf8 (itoaInt e.1) := Utf8.of_ascii (itoaInt_ascii e.1)
    simp only [List.map_cons, cleanMembers, cleanMember, List.foldl_cons]
    rw [ha, parseInt_itoa _ h1]
    simp only [dStr_read [] e.2 h2, Bool.and_self]
    rw [ih (m.set e.1 e.2) fun x hx => h x (by simp [hx])]
    rfl

/-- A table is read back with the same entries. -/
theorem dIntMap_read (m : GoMap Int Str) (h : ∀ k v, m.get k = some v → GoInt k ∧ Utf8 v) :
    ∃ m', dIntMap .empty (clean (jIntMap m)) = (m', true) ∧ ∀ k, m'.get k = m.get k := by
  have hinj : ∀ {a b : Int}, itoaInt a = itoaInt b → a = b := fun {a b} e => by
    have := intTok_itoa a
    rw [e, intTok_itoa] at this
    exact (Option.some.inj this).symm
  have hM : ∀ s v, ((GoMap.empty : GoMap Str Str).assignAll (m.entries.map fun e => (itoaInt e.1, e.2))).get s = some v ↔
      ∃ k, s = itoaInt k ∧ m.get k = some v := by
    intro s v
    rw [assignAll_get]
    · simp only [List.mem_map, Prod.mk.injEq]
      constructor
      · rintro ⟨e, he, rfl, rfl⟩
        exact ⟨e.1, rfl, (GoMap.get_eq_some_iff m _ _).2 he⟩
      · rintro ⟨k, rfl, hk⟩
        exact ⟨(k, v), (GoMap.get_eq_some_iff m _ _).1 hk, rfl, rfl⟩
    · rw [List.map_map]
      have : m.entries.map ((fun e : Str × Str => e.1) ∘ fun e : Int × Str => (itoaInt e.1, e.2)) = (m.entries.map (·.1)).map itoaInt := by
        rw [List.map_map]; rfl
      rw [this]
      exact nodup_map_of_inj _ _ m.nodup fun a _ b _ e => hinj e
  obtain ⟨l, hl1, hl2, hl3⟩ := jMap_list .str ((GoMap.empty : GoMap Str Str).assignAll (m.entries.map fun e => (itoaInt e.1, e.2)))
  let l' : List (Int × Str) := l.map fun e => ((intTok e.1).getD 0, e.2)
  have hl' : l = l'.map fun e => (itoaInt e.1, e.2) := by
    simp only [l', List.map_map]
    refine (List.map_id l).symm.trans (List.map_congr_left (f := id) ?_)
    · intro e he
      obtain ⟨k, h1, _⟩ := (hM _ _).1 ((hl3 e.1 e.2).1 he)
      simp only [Function.comp, h1, intTok_itoa, Option.getD_some]
      exact Prod.ext h1 rfl
  have hmem : ∀ k v, (k, v) ∈ l' ↔ m.get k = some v := by
    intro k v
    constructor
    · intro hk
      have : (itoaInt k, v) ∈ l := by rw [hl']; exact List.mem_map.2 ⟨_, hk, rfl⟩
      obtain ⟨k', h1, h2⟩ := (hM _ _).1 ((hl3 _ _).1 this)
      rw [hinj h1]; exact h2
    · intro hk
      have : (itoaInt k, v) ∈ l := (hl3 _ _).2 ((hM _ _).2 ⟨k, rfl, hk⟩)
      rw [hl'] at this
      obtain ⟨e, he, heq⟩ := List.mem_map.1 this
      rw [Prod.mk.injEq] at heq
      rw [← hinj heq.1, ← heq.2]
      exact he
  refine ⟨GoMap.empty.assignAll l', ?_, ?_⟩
  · have hj : jIntMap m = .obj (l'.map fun e => (itoaInt e.1, .str e.2)) := by
      unfold jIntMap
      rw [hl1]
      conv => lhs; rw [hl']
      rw [List.map_map]
      rfl
    rw [hj, clean]
    exact foldl_intMap l' .empty fun e he => h e.1 e.2 ((hmem e.1 e.2).1 he)
  · intro k
    apply option_ext_some
    intro v
    rw [assignAll_get l' ?_ k v, hmem]
    have h1 : l.map (·.1) = (l'.map (·.1)).map itoaInt := by
      generalize l' = q at hl'
      rw [hl', List.map_map, List.map_map]
      rfl
    rw [h1] at hl2
    have hof : ∀ q : List Int, (q.map itoaInt).Nodup → q.Nodup := by
      intro q
      induction q with
      | nil => intro _; exact .nil
      | cons a t ih =>
        intro hq
        rw [List.map_cons, List.nodup_cons] at hq
        exact List.nodup_cons.2 ⟨fun ha => hq.1 (List.mem_map.2 ⟨a, ha, rfl⟩), ih hq.2⟩
    exact hof _ hl2

theorem numOk_jIntMap (m : GoMap Int Str) : NumOk (jIntMap m) := numOk_jMap _ _ fun _ => trivial

/-- The entries of a table that JSON keeps: Go integers, and text in UTF-8. -/
def TableOk (m : GoMap Int Str) : Prop := ∀ k v, m.get k = some v → GoInt k ∧ Utf8 v

/-- C144, what holds: a table that was written is read back, with the same entries. -/
theorem C144_table_roundtrip_partial (t : IPs) (h1 : TableOk t.monitor) (h2 : TableOk t.gossiper) (h3 : TableOk t.logger)
    (h4 : TableOk t.ca) : ∃ t', readIPs (some (writeIPs t)) = some t' ∧ ∀ i, t'.monitor.get i = t.monitor.get i ∧
      t'.gossiper.get i = t.gossiper.get i ∧ t'.logger.get i = t.logger.get i ∧ t'.ca.get i = t.ca.get i := by
  obtain ⟨m1, e1, g1⟩ := dIntMap_read _ h1
  obtain ⟨m2, e2, g2⟩ := dIntMap_read _ h2
  obtain ⟨m3, e3, g3⟩ := dIntMap_read _ h3
  obtain ⟨m4, e4, g4⟩ := dIntMap_read _ h4
  refine ⟨⟨m1, m2, m3, m4⟩, ?_, fun i => ⟨g1 i, g2 i, g3 i, g4 i⟩⟩
  have hn : NumOk (ipsJson t) := ⟨numOk_jIntMap _, numOk_jIntMap _, numOk_jIntMap _, numOk_jIntMap _, trivial⟩
  have hd : dIPs ipsZero (clean (ipsJson t)) = (⟨m1, m2, m3, m4⟩, true) := by
    refine Eq.trans (dStruct_zip ipsNames (by decide +kernel) (by decide +kernel) _ _
      [jIntMap t.monitor, jIntMap t.gossiper, jIntMap t.logger, jIntMap t.ca] rfl) ?_
    simp only [List.map_cons, List.map_nil, setAll, ipsZero, e1, e2, e3, e4, Bool.and_self]
  show some (unmarshal ipsZero dIPs (Json.marshalIndent [] (go!" ") (ipsJson t))).1 = _
  rw [unmarshal_indent _ _ [] _ (by intro c hc; cases hc) blank_space _ hn, hd]

/-! ### Loops over directories -/

theorem mapDirs_ok (step : Int → Texts → Texts × Bool) (l : List Texts) : ∀ num : Nat, num ≤ l.length →
    (∀ (i : Nat) t, i < num → l[i]? = some t → (step (i + 1) t).2 = true) →
    (mapDirs step num l).2 = true ∧ (mapDirs step num l).1.length = l.length ∧
      ∀ i : Nat, (mapDirs step num l).1[i]? = if i < num then l[i]?.map fun t => (step (i + 1) t).1 else l[i]? := by
  intro num
  induction num with
  | zero => intro _ _; exact ⟨rfl, rfl, fun i => by simp [mapDirs]⟩
  | succ n ih =>
    intro hn h
    obtain ⟨h1, h2, h3⟩ := ih (by omega) fun i t hi => h i t (by omega)
    have hs : mapDirs step (n + 1) l = if (mapDirs step n l).2 then
        (let r := step ((n : Int) + 1) (((mapDirs step n l).1[n]?).getD ⟨none, none, none⟩)
         ((mapDirs step n l).1.set n r.1, r.2)) else mapDirs step n l := by
      simp only [mapDirs, List.range_succ, List.foldl_append, List.foldl_cons, List.foldl_nil]
    obtain ⟨t, ht⟩ : ∃ t, l[n]? = some t := ⟨l[n], List.getElem?_eq_getElem (by omega)⟩
    have hg : (mapDirs step n l).1[n]? = some t := by rw [h3 n, if_neg (by omega), ht]
    rw [hs, h1, if_pos rfl, hg]
    simp only [Option.getD_some]
    refine ⟨h n t (by omega) ht, by simp [h2], fun i => ?_⟩
    rw [List.getElem?_set]
    by_cases hi : n = i
    · subst hi
      rw [if_pos rfl, if_pos (by rw [h2]; omega), if_pos (by omega), ht]
      rfl
    · rw [if_neg hi, h3 i]
      by_cases hlt : i < n
      · rw [if_pos hlt, if_pos (by omega)]
      · rw [if_neg hlt, if_neg (by omega)]

/-! ### One file -/

theorem blank_two : Blank (go!"  ") := by
  intro c hc
  have : c = 32 := by simpa using hc
  subst this
  decide

theorem loadConf_dataText {α : Type} (z : α) (d : Dec α) (l : List (Str × Json)) (hn : NumOk (.obj l)) (a : α)
    (h : d z (clean (.obj l)) = (a, true)) : loadConf z d (some (dataText (.obj l))) = .running (some a) := by
  unfold loadConf dataText
  simp only [unmarshal_indent _ _ [] _ (by intro c hc; cases hc) blank_two _ hn]
  have : dPtr z d (some z) (clean (.obj l)) = (some a, true) := by
    simp only [clean] at h ⊢
    simp only [dPtr, Option.getD_some, h]
  rw [this]
  rfl

theorem rewriteConf_ok {α : Type} {z : α} {d : Dec α} {f : α → Option α} {enc : α → Json} {file : Option Str} {p q : α}
    (h1 : loadConf z d file = .running (some p)) (h2 : f p = some q) :
    rewriteConf z d f enc file = (some (dataText (enc q)), true) := by
  simp only [rewriteConf, h1, h2]

theorem rewriteThree_ok {priv pub crypto : Option Str → Option Str × Bool} {t : Texts} {a b c : Option Str}
    (h1 : priv t.priv = (a, true)) (h2 : pub t.pub = (b, true)) (h3 : crypto t.crypto = (c, true)) :
    rewriteThree priv pub crypto t = (⟨b, a, c⟩, true) := by
  simp only [rewriteThree, h1, h2, h3, if_true]

section
variable {L : Lib} (F : RsaForm L) (K : KeyLib L) (ips : IPs)

/-- All addresses of the table are ASCII. -/
def AsciiHosts : Prop := ∀ (r : Role) (i : Nat), Ascii (r.host ips i)

variable {ips} in
theorem addr_ascii (h : AsciiHosts ips) (r : Role) (i : Nat) : Ascii (r.addr ips i) := by
  refine ascii_append (h r i) (ascii_append ?_ (postfix_ascii i))
  cases r <;> exact ascii_lit (by decide)

theorem assignAll_mem {V : Type} (l : List (Str × V)) : ∀ (m : GoMap Str V) k v, (m.assignAll l).get k = some v →
    (k, v) ∈ l ∨ m.get k = some v := by
  induction l with
  | nil => intro m k v h; exact .inr h
  | cons e t ih =>
    intro m k v h
    rcases ih (m.set e.1 e.2) k v h with h | h
    · exact .inl (List.mem_cons_of_mem _ h)
    · rw [GoMap.get_set] at h
      split at h
      · next he => cases h; subst he; exact .inl (by simp)
      · exact .inr h

theorem mapM_get {α β : Type} (f : α → Option β) : ∀ (l : List α) (r : List β), l.mapM f = some r →
    r.length = l.length ∧ ∀ (i : Nat) b, r[i]? = some b → ∃ a, l[i]? = some a ∧ f a = some b := by
  intro l
  induction l with
  | nil => intro r h; cases h; exact ⟨rfl, by intro i b h; simp at h⟩
  | cons a t ih =>
    intro r h
    rw [List.mapM_cons] at h
    cases ha : f a with
    | none => rw [ha] at h; cases h
    | some b =>
      cases ht : t.mapM f with
      | none => rw [ha, ht] at h; cases h
      | some q =>
        rw [ha, ht] at h
        cases h
        obtain ⟨h1, h2⟩ := ih q ht
        refine ⟨by simp [h1], ?_⟩
        intro i c hc
        cases i with
        | zero => cases hc; exact ⟨a, rfl, ha⟩
        | succ n => exact h2 n c hc

/-- Renaming the keys of a map whose keys are entities: the new entries. -/
theorem mapEntries_iff {V : Type} (m : GoMap Str V) (hm : ∀ k v, m.get k = some v → ∃ (r : Role) (i : Nat), i < 1000 ∧ k = r.url i) :
    ∃ l, (m.entries.mapM fun e => (mapKey ips e.1).map (·, e.2)) = some l ∧ ∀ k v,
      ((GoMap.empty : GoMap Str V).assignAll l).get k = some v ↔
        ∃ (r : Role) (i : Nat), i < 1000 ∧ k = r.addr ips i ∧ m.get (r.url i) = some v := by
  obtain ⟨l, hl, hg⟩ := mapEntries ips m hm
  refine ⟨l, hl, fun k v => ⟨fun h => ?_, ?_⟩⟩
  · rcases assignAll_mem l .empty k v h with h | h
    · obtain ⟨n, hn⟩ := List.getElem?_of_mem h
      obtain ⟨e, he, hf⟩ := (mapM_get _ _ _ hl).2 n _ hn
      have hme := (GoMap.get_eq_some_iff m e.1 e.2).2 (List.mem_of_getElem? he)
      obtain ⟨r, i, hi, hu⟩ := hm _ _ hme
      rw [hu, mapKey_url ips r hi] at hf
      cases hf
      exact ⟨r, i, hi, rfl, by rw [← hu]; exact hme⟩
    · simp at h
  · rintro ⟨r, i, hi, rfl, h⟩
    rw [hg r i hi]; exact h

/-- The keys of a loaded crypto configuration are entities of a generated deployment. -/
def EntityKeys (s : StoredConfig L) : Prop :=
  (∀ k v, (load K s).signPublicMap.get k = some v → ∃ (r : Role) (i : Nat), i < 1000 ∧ k = r.url i) ∧
  ∀ k v, (load K s).thresholdPublicMap.get k = some v → ∃ (r : Role) (i : Nat), i < 1000 ∧ k = r.url i

/-- What the mapping makes of a crypto configuration. -/
theorem mapCrypto_spec (s : StoredConfig L) (hs : EntityKeys K s) {r : Role} {i : Nat} (hi : i < 1000)
    (hself : (load K s).selfID = r.url i) :
    ∃ m1 m2, mapCrypto K ips (i + 1) s = some (newStored K { load K s with selfID := r.addr ips i, signPublicMap := m1, thresholdPublicMap := m2 }) ∧
      (∀ k v, m1.get k = some v ↔ ∃ (r : Role) (i : Nat), i < 1000 ∧ k = r.addr ips i ∧ (load K s).signPublicMap.get (r.url i) = some v) ∧
      ∀ k v, m2.get k = some v ↔ ∃ (r : Role) (i : Nat), i < 1000 ∧ k = r.addr ips i ∧ (load K s).thresholdPublicMap.get (r.url i) = some v := by
  have e : ((i : Int) + 1 - 1) = i := by omega
  obtain ⟨hosts, hh1, hh2⟩ := hostsFor_url ips r hi
  obtain ⟨l1, hl1, hg1⟩ := mapEntries_iff ips _ hs.1
  obtain ⟨l2, hl2, hg2⟩ := mapEntries_iff ips _ hs.2
  refine ⟨_, _, ?_, hg1, hg2⟩
  simp only [load] at hself hl1 hl2
  unfold mapCrypto
  simp only [hself, hh1, hl1, hl2, Option.bind_eq_bind, Option.bind_some, e, hh2, withHost_url r hi]
  rfl

variable {F} in
/-- The crypto file of a generated entity is rewritten into one from which the mapped configuration is loaded. -/
theorem rewriteCrypto_gen (hF : F.Laws) (hK : KeyLaws K) (hips : AsciiHosts ips) (s : StoredConfig L) (hw : s.Writable)
    (hp : ∀ k v, s.thresholdPublicMap.get k = some v → ∃ p, K.pubDe v = some p) (hs : EntityKeys K s) {r : Role} {i : Nat}
    (hi : i < 1000) (hself : (load K s).selfID = r.url i) :
    ∃ s' text c, mapCrypto K ips (i + 1) s = some s' ∧ rewriteCrypto F K ips (i + 1) (some (genText (storedJson F s))) = (some text, true) ∧
      (readCryptoFile F K (some text)).1 = some c ∧ SameConfig c (load K s') := by
  have hsame0 := dec_genText hF s hw
  generalize hs0 : (confJson F).dec (genText (storedJson F s)) = s0 at hsame0
  have hc0 : SameConfig (load K s0) (load K s) := newCryptoConfig_same K _ _ hsame0 hp
  have hkeys0 : EntityKeys K s0 :=
    ⟨fun k v h => hs.1 k v (by rw [← hc0.signPublicMap]; exact h), fun k v h => hs.2 k v (by rw [← hc0.thresholdPublicMap]; exact h)⟩
  obtain ⟨a1, a2, ea, ga1, ga2⟩ := mapCrypto_spec K ips s0 hkeys0 hi (hc0.selfID.trans hself)
  obtain ⟨b1, b2, eb, gb1, gb2⟩ := mapCrypto_spec K ips s hs hi hself
  have hm1 : SameMap a1 b1 := fun k => option_ext_some fun v => by
    rw [ga1, gb1]
    simp only [hc0.signPublicMap _]
  have hm2 : SameMap a2 b2 := fun k => option_ext_some fun v => by
    rw [ga2, gb2]
    simp only [hc0.thresholdPublicMap _]
  refine ⟨_, (confJson F).enc (newStored K { load K s0 with selfID := r.addr ips i, signPublicMap := a1, thresholdPublicMap := a2 }), _, eb, ?_, rfl, ?_⟩
  · simp only [rewriteCrypto, hs0, ea]
  · obtain ⟨_, f1, f2, f3, f4, f5, _⟩ := newCryptoConfig_fields K s hp
    have hw0 : (newStored K { load K s0 with selfID := r.addr ips i, signPublicMap := a1, thresholdPublicMap := a2 }).Writable := by
      refine ⟨?_, ?_, ?_, addr_ascii hips r i, ⟨?_, ?_⟩, ?_, ?_⟩
      · show GoInt (load K s0).threshold
        rw [hc0.threshold]; simp only [load, f1]; exact hw.threshold
      · show GoInt (load K s0).n
        rw [hc0.n]; simp only [load, f2]; exact hw.n
      · show (load K s0).hashScheme < _
        rw [hc0.hashScheme]; simp only [load, f3]; exact hw.hashScheme
      · show Ascii (load K s0).signScheme
        rw [hc0.signScheme]; simp only [load, f4]; exact hw.schemes.1
      · show Ascii (load K s0).thresholdScheme
        rw [hc0.thresholdScheme]; simp only [load, f5]; exact hw.schemes.2
      · intro k v h
        obtain ⟨r', j, _, rfl, _⟩ := (ga1 k v).1 h
        exact addr_ascii hips r' j
      · intro k v h
        simp only [newStored, serializePubs_get] at h
        cases hk : a2.get k with
        | none => rw [hk] at h; cases h
        | some w =>
          obtain ⟨r', j, _, rfl, _⟩ := (ga2 k w).1 hk
          exact addr_ascii hips r' j
    have h1 := confJson_laws hF _ hw0
    refine newCryptoConfig_same K _ _ ⟨h1.threshold.trans hc0.threshold, h1.n.trans hc0.n, h1.hashScheme.trans hc0.hashScheme,
      h1.signScheme.trans hc0.signScheme, h1.thresholdScheme.trans hc0.thresholdScheme, h1.selfID,
      fun k => (h1.signPublicMap k).trans (hm1 k), h1.signSecretKey.trans hc0.signSecretKey, fun k => ?_,
      h1.thresholdSecretKey.trans (congrArg K.secSer hc0.thresholdSecretKey)⟩ ?_
    · rw [h1.thresholdPublicMap k]
      simp only [newStored, serializePubs_get, hm2 k]
    · intro k v hk
      simp only [newStored, serializePubs_get] at hk
      cases hb : b2.get k with
      | none => rw [hb] at hk; cases hk
      | some w => rw [hb] at hk; cases hk; exact ⟨w, hK.pub w⟩

/-! ### The whole deployment -/

/-- Every process starts from its files, with what is planned for it: `timing` stands for MMD and MRD. -/
structure StartsFrom (timing : Int) (d : Deployment L) (disk : Disk) : Prop where
  counts : disk.cas.length = d.cas.length ∧ disk.loggers.length = d.loggers.length ∧ disk.monitors.length = d.monitors.length ∧
    disk.gossipers.length = d.gossipers.length
  cas : ∀ (i : Nat) f t, d.cas[i]? = some f → disk.cas[i]? = some t → ∃ c, startCA F K t =
    .running ⟨some ⟨f.pub.cas, f.pub.loggers, timing, timing, [go!"1.1"]⟩, some f.priv, some c⟩ ∧ SameConfig c (load K f.crypto)
  loggers : ∀ (i : Nat) f t, d.loggers[i]? = some f → disk.loggers[i]? = some t → ∃ c, startLogger F K t =
    .running ⟨some ⟨f.pub.cas, f.pub.loggers, timing, timing, [go!"1.1"]⟩, some f.priv, some c⟩ ∧ SameConfig c (load K f.crypto)
  monitors : ∀ (i : Nat) f t, d.monitors[i]? = some f → disk.monitors[i]? = some t → ∃ c, startMonitor F K t =
    .running ⟨some ⟨f.pub.cas, f.pub.loggers, 5, timing, timing⟩, some f.priv, some c⟩ ∧ SameConfig c (load K f.crypto)
  gossipers : ∀ (i : Nat) f t, d.gossipers[i]? = some f → disk.gossipers[i]? = some t → ∃ c, startGossiper F K t =
    .running ⟨some ⟨5, timing, timing, f.pub.gossipers, f.pub.signers⟩, some f.priv, some c⟩ ∧ SameConfig c (load K f.crypto)

theorem bind3_inv {A B C D : Type} {x : Option A} {y : Option B} {z : Option C} {mk : A → B → C → D} {e : D}
    (h : (do some (mk (← x) (← y) (← z))) = some e) : ∃ a b c, x = some a ∧ y = some b ∧ z = some c ∧ e = mk a b c := by
  cases x with
  | none => cases h
  | some a =>
    cases y with
    | none => cases h
    | some b =>
      cases z with
      | none => cases h
      | some c => cases h; exact ⟨a, b, c, rfl, rfl, rfl, rfl⟩

theorem zipIdx_get' {α : Type} {l : List α} {i : Nat} {e : α × Nat} (h : l.zipIdx[i]? = some e) : e.2 = i ∧ l[i]? = some e.1 := by
  obtain ⟨h1, h2⟩ := zipIdx_get h
  exact ⟨h2, h1⟩

theorem addrs_utf8 (hips : AsciiHosts ips) (r : Role) (l : List Nat) : Utf8s (l.map (r.addr ips)) := by
  intro s hs
  obtain ⟨j, _, rfl⟩ := List.mem_map.1 hs
  exact Utf8.of_ascii (addr_ascii hips r j)

/-- The files of one directory after a loop of `Map_all`, given what its step does to each of them. -/
theorem mapDirs_starts {α β : Type} (step : Int → Texts → Texts × Bool) (texts : α → Texts) (l : List α) (r : List β)
    (P : β → Texts → Prop) (hlen : r.length = l.length)
    (h : ∀ (i : Nat) a b, l[i]? = some a → r[i]? = some b → ∃ t, step (i + 1) (texts a) = (t, true) ∧ P b t) :
    (mapDirs step l.length (l.map texts)).2 = true ∧ (mapDirs step l.length (l.map texts)).1.length = r.length ∧
      ∀ (i : Nat) b t, r[i]? = some b → (mapDirs step l.length (l.map texts)).1[i]? = some t → P b t := by
  have hr : ∀ (i : Nat) a, l[i]? = some a → ∃ b, r[i]? = some b := by
    intro i a ha
    have : i < l.length := (List.getElem?_eq_some_iff.1 ha).1
    exact ⟨r[i], List.getElem?_eq_getElem (by omega)⟩
  obtain ⟨h1, h2, h3⟩ := mapDirs_ok step (l.map texts) l.length (by simp) (by
    intro i t _ ht
    rw [List.getElem?_map, Option.map_eq_some_iff] at ht
    obtain ⟨a, ha, rfl⟩ := ht
    obtain ⟨b, hb⟩ := hr i a ha
    obtain ⟨t, ht, _⟩ := h i a b ha hb
    rw [ht])
  refine ⟨h1, by rw [h2, List.length_map, hlen], fun i b t hb ht => ?_⟩
  have hi : i < r.length := (List.getElem?_eq_some_iff.1 hb).1
  rw [h3 i, if_pos (by omega), List.getElem?_map, Option.map_map, Option.map_eq_some_iff] at ht
  obtain ⟨a, ha, rfl⟩ := ht
  obtain ⟨t', ht', hP⟩ := h i a b ha hb
  simp only [Function.comp, ht']
  exact hP

variable {F} in
/-- C144, what holds: `Map_all` over the files of a generated deployment comes to its end; then every process starts from its files,
with the mapped lists and addresses, its old port, the same timing and its mapped key file (`mapAll` is the mapping of C70 and
C89), under the address the table gives it. -/
theorem C144_mapped_start_partial (hF : F.Laws) (hK : KeyLaws K) (hips : AsciiHosts ips) (rsa : L.RsaLaws K.rsaPub) (bls : L.BlsLaws K.blsPub)
    (numG threshold numL numCA numCert : Nat) (mmd mrd : Int) (hg : 2 ≤ numG) (hg' : numG ≤ 1000) (hl : 0 < numL) (hl' : numL ≤ 1000)
    (hc : numCA ≤ 1000) (hid : ∀ i, i < numG → K.blsIdOk (Role.gossiper.url i) = true) (ht : threshold < 2 ^ 63)
    (hcert : numCert < 2 ^ 63) (hm : GoInt mmd) :
    ∃ d d' disk, generateAll K numG threshold numL numCA numCert = some d ∧ mapAll K ips d = some d' ∧
      mapAllFiles F K ips numCA numL numG (diskOf F mmd mrd d) = (disk, true) ∧ StartsFrom F K mmd d' disk ∧
      (∀ (i : Nat) f, d'.cas[i]? = some f → f.priv.signer = Role.ca.addr ips i) ∧
      (∀ (i : Nat) f, d'.loggers[i]? = some f → f.priv.signer = Role.logger.addr ips i) ∧
      ∀ (i : Nat) f, d'.monitors[i]? = some f → f.priv.signer = Role.monitor.addr ips i ∧ f.priv.gossiperURL = Role.gossiper.addr ips i := by
  obtain ⟨d, rsaPubs, sec, blsPubs, blsSec, h0, hd, h1, h2, h3, h4, h5⟩ :=
    generateAll_spec K hK numG threshold numL numCA numCert hg hg' hl hl' hc hid
  obtain ⟨_, d', h0', hmap, _⟩ := C89_mapped_deployment_interoperates K hK rsa bls ips numG threshold numL numCA numCert hg hg' hl hl' hc hid
  rw [h0] at h0'
  cases h0'
  obtain ⟨conn, hconn, hgo⟩ := hd.gossipers
  have hnum : ∀ r, numOf numG numL numCA r ≤ 1000 := by intro r; cases r <;> assumption
  have hent : ∀ u ∈ entities numG numL numCA, ∃ (r : Role) (i : Nat), i < 1000 ∧ u = r.url i := by
    intro u hu
    obtain ⟨r, i, hi, h⟩ := mem_entities.1 hu
    exact ⟨r, i, Nat.lt_of_lt_of_le hi (hnum r), h⟩
  have hkeys : ∀ u k bs, EntityKeys K (cryptoFor numG threshold u rsaPubs k blsPubs bs) := by
    intro u k bs
    constructor
    · intro a v h
      have e7 := (newCryptoConfig_fields K (cryptoFor numG threshold u rsaPubs k blsPubs bs) h3).2.2.2.2.2.2.2.1
      simp only [load] at h
      rw [e7] at h
      exact hent a (h2 a v h)
    · intro a v h
      have e9 := (newCryptoConfig_fields K (cryptoFor numG threshold u rsaPubs k blsPubs bs) h3).2.2.2.2.2.2.2.2.2.1 a
      simp only [load] at h
      rw [e9] at h
      cases hb : blsPubs.get a with
      | none => simp only [cryptoFor, hb, Option.bind_none] at h; cases h
      | some w =>
        refine hent a ?_
        simp only [entities, List.mem_append]
        exact .inl (.inl (.inl (h4 a w hb)))
  have hw : ∀ r i k bs, (cryptoFor numG threshold (Role.url r i) rsaPubs k blsPubs bs : StoredConfig L).Writable := by
    intro r i k bs
    refine ⟨⟨by simp only [cryptoFor]; omega, by simp only [cryptoFor]; omega⟩,
      ⟨by simp only [cryptoFor]; omega, by simp only [cryptoFor]; omega⟩, by simp only [cryptoFor]; omega, url_ascii r i,
      ⟨ascii_lit (s := go!"rsa") (by decide), ascii_lit (s := go!"bls") (by decide)⟩, ?_, ?_⟩
    · intro u v hu
      obtain ⟨r', j, _, rfl⟩ := mem_entities.1 (h2 u v hu)
      exact url_ascii r' j
    · intro u v hu
      obtain ⟨j, _, rfl⟩ := mem_urlList.1 (h4 u v hu)
      exact url_ascii .gossiper j
  have hcrypto : ∀ (r : Role) (i : Nat) (k : L.RsaPriv) (bs : Str), i < 1000 → ∃ s' text c,
      mapCrypto K ips (i + 1) (cryptoFor numG threshold (r.url i) rsaPubs k blsPubs bs) = some s' ∧
      rewriteCrypto F K ips (i + 1) (some (genText (storedJson F (cryptoFor numG threshold (r.url i) rsaPubs k blsPubs bs)))) = (some text, true) ∧
      (readCryptoFile F K (some text)).1 = some c ∧ SameConfig c (load K s') := by
    intro r i k bs hi
    refine rewriteCrypto_gen K ips (r := r) hF hK hips _ (hw r i k bs) h3 (hkeys _ _ _) hi ?_
    have e6 := (newCryptoConfig_fields K (cryptoFor numG threshold (r.url i) rsaPubs k blsPubs bs) h3).2.2.2.2.2.2.1
    exact e6
  have hver : Utf8s [go!"1.1"] := by
    intro s hs
    have : s = go!"1.1" := by simpa using hs
    subst this
    exact Utf8.of_ascii (ascii_lit (by decide))
  have h5i : GoInt 5 := ⟨by omega, by omega⟩
  have hpub := C70_public_configs_partial ips numCA numL numG hc hl' hg'
  have hload := loadConf_genText pubConfZero dPubConf _
    (show Json.NumOk (pubConfJson (genPub (urlList prefixLogger numL) (urlList prefixCA numCA) mmd mmd [go!"1.1"])) from
      ⟨numOk_jStrs _, numOk_jStrs _, numOk_jInt _, numOk_jInt _, numOk_jStrs _, trivial⟩) _
    (dPubConf_read (genPub (urlList prefixLogger numL) (urlList prefixCA numCA) mmd mmd [go!"1.1"])
      (cas_utf8 numCA) (loggers_utf8 numL) hm hm hver)
  have hload' := loadConf_dataText pubConfZero dPubConf _
    (show Json.NumOk (pubConfJson ⟨(List.range numCA).map (Role.ca.addr ips), (List.range numL).map (Role.logger.addr ips), mmd, mmd, [go!"1.1"]⟩) from
      ⟨numOk_jStrs _, numOk_jStrs _, numOk_jInt _, numOk_jInt _, numOk_jStrs _, trivial⟩) _
    (dPubConf_read ⟨(List.range numCA).map (Role.ca.addr ips), (List.range numL).map (Role.logger.addr ips), mmd, mmd, [go!"1.1"]⟩
      (addrs_utf8 ips hips .ca _) (addrs_utf8 ips hips .logger _) hm hm hver)
  have hmp : mapPubConf ips (genPub (urlList prefixLogger numL) (urlList prefixCA numCA) mmd mmd [go!"1.1"]) =
      some ⟨(List.range numCA).map (Role.ca.addr ips), (List.range numL).map (Role.logger.addr ips), mmd, mmd, [go!"1.1"]⟩ := by
    simp only [mapPubConf, genPub, hpub.1, Option.map_some]
  unfold mapAll at hmap
  simp only [Option.bind_eq_bind, Option.bind_eq_some_iff] at hmap
  obtain ⟨cas, hm1, logs, hm2, mons, hm3, gos, hm4, hmap⟩ := hmap
  cases hmap
  obtain ⟨n1, g1⟩ := mapM_get _ _ _ hm1
  obtain ⟨n2, g2⟩ := mapM_get _ _ _ hm2
  obtain ⟨n3, g3⟩ := mapM_get _ _ _ hm3
  obtain ⟨n4, g4⟩ := mapM_get _ _ _ hm4
  rw [List.length_zipIdx] at n1 n2 n3 n4
  have r1 := mapDirs_starts (mapCAFiles F K ips) (caTexts F mmd mrd) d.cas cas
    (fun f t => ∃ c, startCA F K t = .running ⟨some ⟨f.pub.cas, f.pub.loggers, mmd, mmd, [go!"1.1"]⟩, some f.priv, some c⟩ ∧
      SameConfig c (load K f.crypto)) n1 (by
    intro i a b ha hb
    obtain ⟨⟨a', i'⟩, he, hf⟩ := g1 i b hb
    obtain ⟨e1, e2⟩ := zipIdx_get' he
    simp only at e1 e2
    subst e1
    rw [ha] at e2
    cases e2
    rw [hd.cas] at ha
    obtain ⟨hi, rfl⟩ := range_map_get ha
    have hi' : i' < 1000 := by omega
    have hmod := Nat.mod_lt i' hl
    obtain ⟨p1, p2, p3, q1, q2, q3, rfl⟩ := bind3_inv (mk := Files.mk) hf
    obtain ⟨s', text, c, k1, k2, k3, k4⟩ := hcrypto .ca i' (sec (Role.ca.url i')) [] hi'
    have q2' := C70_ca_private_partial ips numG i' (i' % numL) (numL - 1 - i' % numL) hg' hi' (by omega) (by omega) (portCA ++ portPostfix i') numCert
    cases hpub.1.symm.trans q1
    cases q2'.symm.trans q2
    cases k1.symm.trans q3
    refine ⟨_, rewriteThree_ok (rewriteConf_ok (loadConf_genText _ _ _ ?_ _ (dCAPriv_read _ (Utf8.of_ascii (url_ascii .ca i'))
      (port_utf8 portCA (ascii_lit (by decide)) i') ?_ (monitors_utf8 numG) (gossipers_utf8 numG) hcert)) q2)
      (rewriteConf_ok hload hmp) k2, c, startCA_of F K hload' (loadConf_dataText _ _ _ ?_ _ (dCAPriv_read _ (Utf8.of_ascii (addr_ascii hips .ca i'))
        (port_utf8 portCA (ascii_lit (by decide)) i') ?_ (addrs_utf8 ips hips .monitor _) (addrs_utf8 ips hips .gossiper _) hcert)) k3, k4⟩
    · exact ⟨trivial, trivial, numOk_jStrs _, numOk_jStrs _, numOk_jStrs _, numOk_itoa _, trivial⟩
    · intro s hs
      simp only [List.mem_cons, List.not_mem_nil, or_false] at hs
      rcases hs with rfl | rfl <;> exact Utf8.of_ascii (url_ascii .logger _)
    · exact ⟨trivial, trivial, numOk_jStrs _, numOk_jStrs _, numOk_jStrs _, numOk_itoa _, trivial⟩
    · intro s hs
      simp only [List.mem_cons, List.not_mem_nil, or_false] at hs
      rcases hs with rfl | rfl <;>
        exact Utf8.of_ascii (ascii_append (hips .logger i') (ascii_append (ascii_lit (by decide)) (postfix_ascii _))))
  have r2 := mapDirs_starts (mapLoggerFiles F K ips) (loggerTexts F mmd mrd) d.loggers logs
    (fun f t => ∃ c, startLogger F K t = .running ⟨some ⟨f.pub.cas, f.pub.loggers, mmd, mmd, [go!"1.1"]⟩, some f.priv, some c⟩ ∧
      SameConfig c (load K f.crypto)) n2 (by
    intro i a b ha hb
    obtain ⟨⟨a', i'⟩, he, hf⟩ := g2 i b hb
    obtain ⟨e1, e2⟩ := zipIdx_get' he
    simp only at e1 e2
    subst e1
    rw [ha] at e2
    cases e2
    rw [hd.loggers] at ha
    obtain ⟨hi, rfl⟩ := range_map_get ha
    have hi' : i' < 1000 := by omega
    obtain ⟨p1, p2, p3, q1, q2, q3, rfl⟩ := bind3_inv (mk := Files.mk) hf
    obtain ⟨s', text, c, k1, k2, k3, k4⟩ := hcrypto .logger i' (sec (Role.logger.url i')) [] hi'
    have q2' := C70_logger_private_partial ips numCA numG i' hg' hi' (portLogger ++ portPostfix i')
    cases hpub.1.symm.trans q1
    cases q2'.symm.trans q2
    cases k1.symm.trans q3
    refine ⟨_, rewriteThree_ok (rewriteConf_ok (loadConf_genText _ _ _ ?_ _ (dLogPriv_read _ (Utf8.of_ascii (url_ascii .logger i'))
      (port_utf8 portLogger (ascii_lit (by decide)) i') (cas_utf8 numCA) (monitors_utf8 numG) (gossipers_utf8 numG))) q2)
      (rewriteConf_ok hload hmp) k2, c, startLogger_of F K hload' (loadConf_dataText _ _ _ ?_ _ (dLogPriv_read _ (Utf8.of_ascii (addr_ascii hips .logger i'))
        (port_utf8 portLogger (ascii_lit (by decide)) i') (cas_utf8 numCA) (addrs_utf8 ips hips .monitor _) (addrs_utf8 ips hips .gossiper _))) k3, k4⟩
    · exact ⟨trivial, trivial, numOk_jStrs _, numOk_jStrs _, numOk_jStrs _, trivial⟩
    · exact ⟨trivial, trivial, numOk_jStrs _, numOk_jStrs _, numOk_jStrs _, trivial⟩)
  have r3 := mapDirs_starts (mapMonitorFiles F K ips) (monitorTexts F mmd mrd) d.monitors mons
    (fun f t => ∃ c, startMonitor F K t = .running ⟨some ⟨f.pub.cas, f.pub.loggers, 5, mmd, mmd⟩, some f.priv, some c⟩ ∧
      SameConfig c (load K f.crypto)) n3 (by
    intro i a b ha hb
    obtain ⟨⟨a', i'⟩, he, hf⟩ := g3 i b hb
    obtain ⟨e1, e2⟩ := zipIdx_get' he
    simp only at e1 e2
    subst e1
    rw [ha] at e2
    cases e2
    rw [hd.monitors] at ha
    obtain ⟨hi, rfl⟩ := range_map_get ha
    have hi' : i' < 1000 := by omega
    obtain ⟨p1, p2, p3, q1, q2, q3, rfl⟩ := bind3_inv (mk := Files.mk) hf
    obtain ⟨s', text, c, k1, k2, k3, k4⟩ := hcrypto .monitor i' (sec (Role.monitor.url i')) [] hi'
    have q2' := C70_monitor_private_partial ips numCA numL i' hc hl' hi' (portGossiper ++ portPostfix i') (portMonitor ++ portPostfix i')
    have hmq : mapMonPub ips (genMonPub (urlList prefixCA numCA) (urlList prefixLogger numL) mmd mmd 5) =
        some ⟨(List.range numCA).map (Role.ca.addr ips), (List.range numL).map (Role.logger.addr ips), 5, mmd, mmd⟩ := by
      simp only [mapMonPub, genMonPub, hpub.1, Option.map_some]
    cases hpub.1.symm.trans q1
    cases q2'.symm.trans q2
    cases k1.symm.trans q3
    refine ⟨_, rewriteThree_ok (rewriteConf_ok (loadConf_genText _ _ _ ?_ _ (dMonPriv_read _ (cas_utf8 numCA) (loggers_utf8 numL)
        (Utf8.of_ascii (url_ascii .monitor i')) (Utf8.of_ascii (url_ascii .gossiper i')) (port_utf8 portGossiper (ascii_lit (by decide)) i')
        (port_utf8 portMonitor (ascii_lit (by decide)) i'))) q2)
      (rewriteConf_ok (loadConf_genText _ _ _ ?_ _ (dMonPub_read ⟨_, _, 5, mmd, mmd⟩ (cas_utf8 numCA) (loggers_utf8 numL) h5i hm hm)) hmq) k2, c,
      startMonitor_of F K (loadConf_dataText _ _ _ ?_ _ (dMonPub_read ⟨_, _, 5, mmd, mmd⟩ (addrs_utf8 ips hips .ca _) (addrs_utf8 ips hips .logger _) h5i hm hm))
        (loadConf_dataText _ _ _ ?_ _ (dMonPriv_read _ (addrs_utf8 ips hips .ca _) (addrs_utf8 ips hips .logger _)
        (Utf8.of_ascii (addr_ascii hips .monitor i')) (Utf8.of_ascii (addr_ascii hips .gossiper i')) (port_utf8 portGossiper (ascii_lit (by decide)) i')
        (port_utf8 portMonitor (ascii_lit (by decide)) i'))) k3, k4⟩
    · exact ⟨numOk_jStrs _, numOk_jStrs _, trivial, trivial, trivial, trivial, trivial⟩
    · exact ⟨numOk_jStrs _, numOk_jStrs _, numOk_jInt _, numOk_jInt _, numOk_jInt _, trivial⟩
    · exact ⟨numOk_jStrs _, numOk_jStrs _, numOk_jInt _, numOk_jInt _, numOk_jInt _, trivial⟩
    · exact ⟨numOk_jStrs _, numOk_jStrs _, trivial, trivial, trivial, trivial, trivial⟩)
  have r4 := mapDirs_starts (mapGossiperFiles F K ips) (gossiperTexts F mmd mrd) d.gossipers gos
    (fun f t => ∃ c, startGossiper F K t = .running ⟨some ⟨5, mmd, mmd, f.pub.gossipers, f.pub.signers⟩, some f.priv, some c⟩ ∧
      SameConfig c (load K f.crypto)) n4 (by
    intro i a b ha hb
    obtain ⟨⟨a', i'⟩, he, hf⟩ := g4 i b hb
    obtain ⟨e1, e2⟩ := zipIdx_get' he
    simp only at e1 e2
    subst e1
    rw [ha] at e2
    cases e2
    rw [hgo] at ha
    obtain ⟨hi, rfl⟩ := range_map_get ha
    have hi' : i' < 1000 := by omega
    obtain ⟨p1, p2, p3, q1, q2, q3, rfl⟩ := bind3_inv (mk := Files.mk) hf
    obtain ⟨s', text, c, k1, k2, k3, k4⟩ := hcrypto .gossiper i' (sec (Role.gossiper.url i')) (K.secSer (blsSec (Role.gossiper.url i'))) hi'
    obtain ⟨js, hjs, hci⟩ := hconn i' hi
    have q2' := C70_gossiper_private_partial ips i' js (fun j hj => Nat.lt_of_lt_of_le (hjs j hj) hg') hi' (portGossiper ++ portPostfix i')
    have hmq : mapGosPub ips (genGosPub (urlList prefixGossiper numG) (urlList prefixMonitor numG) mmd mmd 5) =
        some ⟨5, mmd, mmd, (List.range numG).map (Role.gossiper.addr ips), (List.range numG).map (Role.monitor.addr ips)⟩ := by
      simp only [mapGosPub, genGosPub, hpub.2, Option.map_some]
    simp only [hci] at q2
    cases hpub.2.symm.trans q1
    cases q2'.symm.trans q2
    cases k1.symm.trans q3
    refine ⟨_, rewriteThree_ok (rewriteConf_ok (p := conn i') (loadConf_genText _ _ _ ?_ _ (dGosPriv_read _ ?_ ?_ ?_)) (by rw [hci]; exact q2))
      (rewriteConf_ok (loadConf_genText _ _ _ ?_ _ (dGosPub_read ⟨5, mmd, mmd, _, _⟩ h5i hm hm (gossipers_utf8 numG) (monitors_utf8 numG))) hmq) k2, c,
      startGossiper_of F K (loadConf_dataText _ _ _ ?_ _ (dGosPub_read ⟨5, mmd, mmd, _, _⟩ h5i hm hm (addrs_utf8 ips hips .gossiper _) (addrs_utf8 ips hips .monitor _)))
        (loadConf_dataText _ _ _ ?_ _ (dGosPriv_read _ (addrs_utf8 ips hips .gossiper _)
          (Utf8.of_ascii (ascii_append (hips .gossiper i') (ascii_append (ascii_lit (by decide)) (postfix_ascii _))))
          (port_utf8 portGossiper (ascii_lit (by decide)) i'))) k3, k4⟩
    · exact ⟨numOk_jStrs _, trivial, trivial, trivial⟩
    · rw [hci]
      intro s hs
      obtain ⟨j, _, rfl⟩ := List.mem_map.1 hs
      exact Utf8.of_ascii (url_ascii .gossiper j)
    · rw [hci]
      exact Utf8.of_ascii (url_ascii .monitor i')
    · rw [hci]
      exact port_utf8 portGossiper (ascii_lit (by decide)) i'
    · exact ⟨numOk_jInt _, numOk_jInt _, numOk_jInt _, numOk_jStrs _, numOk_jStrs _, trivial⟩
    · exact ⟨numOk_jInt _, numOk_jInt _, numOk_jInt _, numOk_jStrs _, numOk_jStrs _, trivial⟩
    · exact ⟨numOk_jStrs _, trivial, trivial, trivial⟩)
  have s1 : ∀ (i : Nat) f, cas[i]? = some f → f.priv.signer = Role.ca.addr ips i := by
    intro i b hb
    obtain ⟨⟨a, i'⟩, he, hf⟩ := g1 i b hb
    obtain ⟨e1, ha⟩ := zipIdx_get' he
    simp only at e1 ha
    subst e1
    rw [hd.cas] at ha
    obtain ⟨hi, rfl⟩ := range_map_get ha
    have hi' : i' < 1000 := by omega
    have hmod := Nat.mod_lt i' hl
    obtain ⟨p1, p2, p3, q1, q2, q3, rfl⟩ := bind3_inv (mk := Files.mk) hf
    cases (C70_ca_private_partial ips numG i' (i' % numL) (numL - 1 - i' % numL) hg' hi' (by omega) (by omega) (portCA ++ portPostfix i') numCert).symm.trans q2
    rfl
  have s2 : ∀ (i : Nat) f, logs[i]? = some f → f.priv.signer = Role.logger.addr ips i := by
    intro i b hb
    obtain ⟨⟨a, i'⟩, he, hf⟩ := g2 i b hb
    obtain ⟨e1, ha⟩ := zipIdx_get' he
    simp only at e1 ha
    subst e1
    rw [hd.loggers] at ha
    obtain ⟨hi, rfl⟩ := range_map_get ha
    have hi' : i' < 1000 := by omega
    have hmod := Nat.mod_lt i' hl
    obtain ⟨p1, p2, p3, q1, q2, q3, rfl⟩ := bind3_inv (mk := Files.mk) hf
    cases (C70_logger_private_partial ips numCA numG i' hg' hi' (portLogger ++ portPostfix i')).symm.trans q2
    rfl
  have s3 : ∀ (i : Nat) f, mons[i]? = some f → f.priv.signer = Role.monitor.addr ips i ∧ f.priv.gossiperURL = Role.gossiper.addr ips i := by
    intro i b hb
    obtain ⟨⟨a, i'⟩, he, hf⟩ := g3 i b hb
    obtain ⟨e1, ha⟩ := zipIdx_get' he
    simp only at e1 ha
    subst e1
    rw [hd.monitors] at ha
    obtain ⟨hi, rfl⟩ := range_map_get ha
    have hi' : i' < 1000 := by omega
    have hmod := Nat.mod_lt i' hl
    obtain ⟨p1, p2, p3, q1, q2, q3, rfl⟩ := bind3_inv (mk := Files.mk) hf
    cases (C70_monitor_private_partial ips numCA numL i' hc hl' hi' (portGossiper ++ portPostfix i') (portMonitor ++ portPostfix i')).symm.trans q2
    exact ⟨rfl, rfl⟩
  have c1 : d.cas.length = numCA := by rw [hd.cas]; simp
  have c2 : d.loggers.length = numL := by rw [hd.loggers]; simp
  have c3 : d.monitors.length = numG := by rw [hd.monitors]; simp
  have c4 : d.gossipers.length = numG := by rw [hgo]; simp
  rw [c1] at r1
  rw [c2] at r2
  rw [c3] at r3
  rw [c4] at r4
  refine ⟨d, ⟨cas, logs, mons, gos⟩, ⟨_, _, _, _⟩, h0, ?_, ?_, ⟨⟨r1.2.1, r2.2.1, r3.2.1, r4.2.1⟩, fun i f t hf ht => r1.2.2 i f t hf ht,
    fun i f t hf ht => r2.2.2 i f t hf ht, fun i f t hf ht => r3.2.2 i f t hf ht, fun i f t hf ht => r4.2.2 i f t hf ht⟩, s1, s2, s3⟩
  · unfold mapAll
    simp only [Option.bind_eq_bind, hm1, hm2, hm3, hm4, Option.bind_some]
  · simp only [mapAllFiles, diskOf, r1.1, r2.1, r3.1, if_true]
    rw [r4.1]

/-- The configuration a process runs with when it is started from a file of the disk. -/
inductive RunsFrom (disk : Disk) : CryptoConfig L → Prop
  | ca (t) (h : t ∈ disk.cas) (ctx) (c) (hs : startCA F K t = .running ctx) (hc : ctx.crypto = some c) : RunsFrom disk c
  | logger (t) (h : t ∈ disk.loggers) (ctx) (c) (hs : startLogger F K t = .running ctx) (hc : ctx.crypto = some c) : RunsFrom disk c
  | monitor (t) (h : t ∈ disk.monitors) (ctx) (c) (hs : startMonitor F K t = .running ctx) (hc : ctx.crypto = some c) : RunsFrom disk c
  | gossiper (t) (h : t ∈ disk.gossipers) (ctx) (c) (hs : startGossiper F K t = .running ctx) (hc : ctx.crypto = some c) :
    RunsFrom disk c

theorem getElem?_same_length {α β : Type} {l : List α} {r : List β} (h : l.length = r.length) {i : Nat} {a : α} (ha : l[i]? = some a) :
    ∃ b, r[i]? = some b := by
  have : i < l.length := (List.getElem?_eq_some_iff.1 ha).1
  exact ⟨r[i], List.getElem?_eq_getElem (by omega)⟩

variable {F K} in
theorem runsFrom_load {timing : Int} {d : Deployment L} {disk : Disk} (hs : StartsFrom F K timing d disk) {c : CryptoConfig L}
    (h : RunsFrom F K disk c) : ∃ s ∈ d.configs, SameConfig c (load K s) := by
  simp only [Deployment.configs, List.mem_append, List.mem_map]
  cases h with
  | ca t h ctx c hst hc =>
    obtain ⟨i, hi⟩ := List.getElem?_of_mem h
    obtain ⟨f, hf⟩ := getElem?_same_length hs.counts.1 hi
    obtain ⟨c', e, hsame⟩ := hs.cas i f t hf hi
    rw [hst] at e
    cases e
    cases hc
    exact ⟨_, .inl (.inl (.inl ⟨f, List.mem_of_getElem? hf, rfl⟩)), hsame⟩
  | logger t h ctx c hst hc =>
    obtain ⟨i, hi⟩ := List.getElem?_of_mem h
    obtain ⟨f, hf⟩ := getElem?_same_length hs.counts.2.1 hi
    obtain ⟨c', e, hsame⟩ := hs.loggers i f t hf hi
    rw [hst] at e
    cases e
    cases hc
    exact ⟨_, .inl (.inl (.inr ⟨f, List.mem_of_getElem? hf, rfl⟩)), hsame⟩
  | monitor t h ctx c hst hc =>
    obtain ⟨i, hi⟩ := List.getElem?_of_mem h
    obtain ⟨f, hf⟩ := getElem?_same_length hs.counts.2.2.1 hi
    obtain ⟨c', e, hsame⟩ := hs.monitors i f t hf hi
    rw [hst] at e
    cases e
    cases hc
    exact ⟨_, .inl (.inr ⟨f, List.mem_of_getElem? hf, rfl⟩), hsame⟩
  | gossiper t h ctx c hst hc =>
    obtain ⟨i, hi⟩ := List.getElem?_of_mem h
    obtain ⟨f, hf⟩ := getElem?_same_length hs.counts.2.2.2 hi
    obtain ⟨c', e, hsame⟩ := hs.gossipers i f t hf hi
    rw [hst] at e
    cases e
    cases hc
    exact ⟨_, .inr ⟨f, List.mem_of_getElem? hf, rfl⟩, hsame⟩

variable {F} in
/-- C144, what holds: processes started after `Map_all` run under their new addresses and accept each other's signatures and the
fragments of the gossipers. -/
theorem C144_mapped_interoperate_partial (hF : F.Laws) (hK : KeyLaws K) (hips : AsciiHosts ips) (rsa : L.RsaLaws K.rsaPub)
    (bls : L.BlsLaws K.blsPub) (numG threshold numL numCA numCert : Nat) (mmd mrd : Int) (hg : 2 ≤ numG) (hg' : numG ≤ 1000)
    (hl : 0 < numL) (hl' : numL ≤ 1000) (hc : numCA ≤ 1000) (hid : ∀ i, i < numG → K.blsIdOk (Role.gossiper.url i) = true)
    (ht : threshold < 2 ^ 63) (hcert : numCert < 2 ^ 63) (hm : GoInt mmd) :
    ∃ d disk, generateAll K numG threshold numL numCA numCert = some d ∧
      mapAllFiles F K ips numCA numL numG (diskOf F mmd mrd d) = (disk, true) ∧
      (∀ (i : Nat) t, disk.cas[i]? = some t → ∃ pub priv c, startCA F K t = .running ⟨some pub, some priv, some c⟩ ∧
        c.selfID = Role.ca.addr ips i ∧ priv.signer = Role.ca.addr ips i) ∧
      (∀ (i : Nat) t, disk.loggers[i]? = some t → ∃ pub priv c, startLogger F K t = .running ⟨some pub, some priv, some c⟩ ∧
        c.selfID = Role.logger.addr ips i ∧ priv.signer = Role.logger.addr ips i) ∧
      (∀ (i : Nat) t, disk.monitors[i]? = some t → ∃ pub priv c, startMonitor F K t = .running ⟨some pub, some priv, some c⟩ ∧
        c.selfID = Role.monitor.addr ips i ∧ priv.signer = Role.monitor.addr ips i ∧ priv.gossiperURL = Role.gossiper.addr ips i) ∧
      (∀ (i : Nat) t, disk.gossipers[i]? = some t → ∃ pub priv c, startGossiper F K t = .running ⟨some pub, some priv, some c⟩ ∧
        c.selfID = Role.gossiper.addr ips i) ∧
      (∀ a b, RunsFrom F K disk a → RunsFrom F K disk b → ∀ msg sig, a.sign msg = some sig → b.verify msg sig = .ok) ∧
      ∀ t ∈ disk.gossipers, ∀ ctx a b, startGossiper F K t = .running ctx → ctx.crypto = some a → RunsFrom F K disk b →
        ∀ msg, b.fragmentVerify msg (a.thresholdSign msg).1 = .ok := by
  obtain ⟨d, d', disk, h0, h1, h2, hs, s1, s2, s3⟩ := C144_mapped_start_partial K ips hF hK hips rsa bls numG threshold numL numCA numCert mmd mrd
    hg hg' hl hl' hc hid ht hcert hm
  obtain ⟨d2, d2', k0, k1, a1, a2, a3, a4, _, _, _, _, hi⟩ :=
    C89_mapped_deployment_interoperates K hK rsa bls ips numG threshold numL numCA numCert hg hg' hl hl' hc hid
  rw [h0] at k0
  cases k0
  rw [h1] at k1
  cases k1
  refine ⟨d, disk, h0, h2, ?_, ?_, ?_, ?_, ?_, ?_⟩
  · intro i t ht
    obtain ⟨f, hf⟩ := getElem?_same_length hs.counts.1 ht
    obtain ⟨c, e, hsame⟩ := hs.cas i f t hf ht
    exact ⟨_, _, c, e, hsame.selfID.trans (a1 i f hf), s1 i f hf⟩
  · intro i t ht
    obtain ⟨f, hf⟩ := getElem?_same_length hs.counts.2.1 ht
    obtain ⟨c, e, hsame⟩ := hs.loggers i f t hf ht
    exact ⟨_, _, c, e, hsame.selfID.trans (a2 i f hf), s2 i f hf⟩
  · intro i t ht
    obtain ⟨f, hf⟩ := getElem?_same_length hs.counts.2.2.1 ht
    obtain ⟨c, e, hsame⟩ := hs.monitors i f t hf ht
    exact ⟨_, _, c, e, hsame.selfID.trans (a3 i f hf), s3 i f hf⟩
  · intro i t ht
    obtain ⟨f, hf⟩ := getElem?_same_length hs.counts.2.2.2 ht
    obtain ⟨c, e, hsame⟩ := hs.gossipers i f t hf ht
    exact ⟨_, _, c, e, hsame.selfID.trans (a4 i f hf)⟩
  · intro a b ha hb msg sig hsig
    obtain ⟨sa, ha1, ha2⟩ := runsFrom_load hs ha
    obtain ⟨sb, hb1, hb2⟩ := runsFrom_load hs hb
    rw [(sign_same hb2 msg).2.1]
    exact hi.1 sa ha1 sb hb1 msg sig (by rw [← (sign_same ha2 msg).1]; exact hsig)
  · intro t ht ctx a b hst hctx hb msg
    obtain ⟨i, hti⟩ := List.getElem?_of_mem ht
    obtain ⟨f, hf⟩ := getElem?_same_length hs.counts.2.2.2 hti
    obtain ⟨c', e, hsame⟩ := hs.gossipers i f t hf hti
    rw [hst] at e
    cases e
    cases hctx
    obtain ⟨sb, hb1, hb2⟩ := runsFrom_load hs hb
    rw [(sign_same hb2 msg).2.2.2, (sign_same hsame msg).2.2.1]
    exact hi.2 f (List.mem_of_getElem? hf) sb hb1 msg

/-! ### Through the file of the table -/

theorem template_map_get (n : Nat) (mask : Str) (off : Nat) (k : Int) (v : Str) :
    ((GoMap.empty : GoMap Int Str).assignAll ((List.range n).map fun (i : Nat) => ((i : Int), mask ++ itoa (i + off)))).get k = some v ↔
      ∃ i : Nat, i < n ∧ k = i ∧ v = mask ++ itoa (i + off) := by
  rw [assignAll_get]
  · simp only [List.mem_map, List.mem_range, Prod.mk.injEq]
    constructor
    · rintro ⟨i, hi, rfl, rfl⟩; exact ⟨i, hi, rfl, rfl⟩
    · rintro ⟨i, hi, rfl, rfl⟩; exact ⟨i, hi, rfl, rfl⟩
  · rw [List.map_map]
    refine nodup_map_of_inj _ _ List.nodup_range ?_
    intro a _ b _ h
    simp only [Function.comp] at h
    omega

/-- C144, what holds: the table of the template (with masks in ASCII), written to its file and read back, gives entity `i` of a role
the host `mask ++ (i + offset)` of that role. -/
theorem C144_template_partial (numCA numL numMG : Nat) (hc : numCA ≤ 1000) (hl : numL ≤ 1000) (hm : numMG ≤ 1000) (caMask lMask mgMask : Str)
    (h1 : Ascii caMask) (h2 : Ascii lMask) (h3 : Ascii mgMask) (caOff lOff mgOff : Nat) :
    ∃ t, readIPs (some (writeIPs (ipTemplate numCA numL numMG caMask caOff lMask lOff mgMask mgOff))) = some t ∧ AsciiHosts t ∧
      (∀ i, i < numCA → Role.ca.addr t i = caMask ++ itoa (i + caOff) ++ (go!":6" ++ portPostfix i)) ∧
      (∀ i, i < numL → Role.logger.addr t i = lMask ++ itoa (i + lOff) ++ (go!":7" ++ portPostfix i)) ∧
      (∀ i, i < numMG → Role.monitor.addr t i = mgMask ++ itoa (i + mgOff) ++ (go!":8" ++ portPostfix i)) ∧
      ∀ i, i < numMG → Role.gossiper.addr t i = mgMask ++ itoa (i + mgOff) ++ (go!":9" ++ portPostfix i) := by
  have hok : ∀ (n : Nat) (mask : Str) (off : Nat), n ≤ 1000 → Ascii mask →
      TableOk ((GoMap.empty : GoMap Int Str).assignAll ((List.range n).map fun (i : Nat) => ((i : Int), mask ++ itoa (i + off)))) := by
    intro n mask off hn hmask k v hk
    obtain ⟨i, hi, rfl, rfl⟩ := (template_map_get n mask off k v).1 hk
    exact ⟨⟨by omega, by omega⟩, Utf8.of_ascii (ascii_append hmask (itoa_ascii _))⟩
  obtain ⟨t, ht, hg⟩ := C144_table_roundtrip_partial (ipTemplate numCA numL numMG caMask caOff lMask lOff mgMask mgOff)
    (hok _ _ _ hm h3) (hok _ _ _ hm h3) (hok _ _ _ hl h2) (hok _ _ _ hc h1)
  have key : ∀ (m : GoMap Int Str) (n : Nat) (mask : Str) (off : Nat), (∀ k, m.get k =
      ((GoMap.empty : GoMap Int Str).assignAll ((List.range n).map fun (i : Nat) => ((i : Int), mask ++ itoa (i + off)))).get k) →
      (Ascii mask → ∀ i : Nat, Ascii (ipAt m i)) ∧ ∀ i : Nat, i < n → ipAt m i = mask ++ itoa (i + off) := by
    intro m n mask off h
    constructor
    · intro hmask i
      unfold ipAt
      cases hk : m.get i with
      | none => intro c hc; cases hc
      | some v =>
        rw [h] at hk
        obtain ⟨j, _, _, rfl⟩ := (template_map_get n mask off _ v).1 hk
        exact ascii_append hmask (itoa_ascii _)
    · intro i hi
      unfold ipAt
      rw [h, (template_map_get n mask off i _).2 ⟨i, hi, rfl, rfl⟩]
      rfl
  have k1 := key t.ca numCA caMask caOff fun k => (hg k).2.2.2
  have k2 := key t.logger numL lMask lOff fun k => (hg k).2.2.1
  have k3 := key t.monitor numMG mgMask mgOff fun k => (hg k).1
  have k4 := key t.gossiper numMG mgMask mgOff fun k => (hg k).2.1
  refine ⟨t, ht, ?_, fun i hi => ?_, fun i hi => ?_, fun i hi => ?_, fun i hi => ?_⟩
  · intro r i
    cases r
    · exact k1.1 h1 i
    · exact k2.1 h2 i
    · exact k3.1 h3 i
    · exact k4.1 h3 i
  · show ipAt t.ca i ++ _ = _
    rw [k1.2 i hi]; rfl
  · show ipAt t.logger i ++ _ = _
    rw [k2.2 i hi]; rfl
  · show ipAt t.monitor i ++ _ = _
    rw [k3.2 i hi]; rfl
  · show ipAt t.gossiper i ++ _ = _
    rw [k4.2 i hi]; rfl

/-! ### What does not hold -/

variable {F} in
/-- C144 fails: a table that is not JSON is not refused. Everybody is mapped to an address without a host, and the processes start
with it. -/
theorem C144_violated_broken_table (hF : F.Laws) (hK : KeyLaws K) (rsa : L.RsaLaws K.rsaPub)
    (bls : L.BlsLaws K.blsPub) (numG threshold numL numCA numCert : Nat) (mmd mrd : Int) (hg : 2 ≤ numG) (hg' : numG ≤ 1000)
    (hl : 0 < numL) (hl' : numL ≤ 1000) (hc : numCA ≤ 1000) (hid : ∀ i, i < numG → K.blsIdOk (Role.gossiper.url i) = true)
    (ht : threshold < 2 ^ 63) (hcert : numCert < 2 ^ 63) (hm : GoInt mmd) (text : Str) (hbad : Json.parse text = none) :
    ∃ t d disk, readIPs (some text) = some t ∧ generateAll K numG threshold numL numCA numCert = some d ∧
      mapAllFiles F K t numCA numL numG (diskOf F mmd mrd d) = (disk, true) ∧
      ∀ (i : Nat) x, disk.gossipers[i]? = some x → ∃ pub priv c, startGossiper F K x = .running ⟨some pub, some priv, some c⟩ ∧
        c.selfID = go!":9" ++ portPostfix i := by
  have h0 : readIPs (some text) = some ipsZero := by
    show some (unmarshal ipsZero dIPs text).1 = _
    simp only [unmarshal, hbad]
  obtain ⟨d, disk, e1, e2, _, _, _, e3, _⟩ := C144_mapped_interoperate_partial K ipsZero hF hK
    (fun r i => by cases r <;> exact fun c hc => by cases hc) rsa bls numG threshold numL numCA numCert mmd mrd hg hg' hl hl' hc hid ht hcert hm
  exact ⟨_, d, disk, h0, e1, e2, e3⟩

theorem mapDirs_stop (step : Int → Texts → Texts × Bool) (l : List Texts) (t : Texts) (ht : l[0]? = some t) (h : (step 1 t).2 = false) :
    ∀ num, 0 < num → (mapDirs step num l).2 = false := by
  intro num hn
  induction num with
  | zero => omega
  | succ n ih =>
    have hs : mapDirs step (n + 1) l = if (mapDirs step n l).2 then
        (let r := step ((n : Int) + 1) (((mapDirs step n l).1[n]?).getD ⟨none, none, none⟩)
         ((mapDirs step n l).1.set n r.1, r.2)) else mapDirs step n l := by
      simp only [mapDirs, List.range_succ, List.foldl_append, List.foldl_cons, List.foldl_nil]
    cases n with
    | zero =>
      rw [hs]
      have h0 : mapDirs step 0 l = (l, true) := rfl
      simp only [h0, if_true, ht, Option.getD_some]
      exact h
    | succ n =>
      have := ih (by omega)
      rw [hs, this]
      simpa using this

theorem hostsFor_none (u : Str) (h : ∀ rest, u ≠ go!"localhost:" ++ rest) : hostsFor ips u = none := by
  have hne : ∀ p : Str, (∃ d, p = go!"localhost:" ++ [d]) → u.take 11 ≠ p := by
    rintro p ⟨d, rfl⟩ hu
    apply h ([d] ++ u.drop 11)
    rw [← List.append_assoc, ← hu, List.take_append_drop]
  unfold hostsFor
  split
  · rfl
  · rw [if_neg (hne prefixCA ⟨_, rfl⟩), if_neg (hne prefixLogger ⟨_, rfl⟩), if_neg (hne prefixMonitor ⟨_, rfl⟩),
      if_neg (hne prefixGossiper ⟨_, rfl⟩)]

variable {F K} in
theorem startCA_crypto {t : Texts} {p q c} (e : startCA F K t = .running ⟨p, q, some c⟩) : (readCryptoFile F K t.crypto).1 = some c := by
  unfold startCA at e
  split at e
  · cases e
  · cases e
  · split at e
    · cases e
    · cases e
    · split at e
      · next h' _ => cases e; exact h'
      · cases e

variable {F} in
/-- C144 fails: `Map_all` cannot be run a second time, with whatever table, once the addresses have left `localhost`: it ends at the
crypto file of the first CA. -/
theorem C144_violated_second_run (hF : F.Laws) (hK : KeyLaws K) (hips : AsciiHosts ips) (rsa : L.RsaLaws K.rsaPub)
    (bls : L.BlsLaws K.blsPub) (numG threshold numL numCA numCert : Nat) (mmd mrd : Int) (hg : 2 ≤ numG) (hg' : numG ≤ 1000)
    (hl : 0 < numL) (hl' : numL ≤ 1000) (hc0 : 0 < numCA) (hc : numCA ≤ 1000) (hid : ∀ i, i < numG → K.blsIdOk (Role.gossiper.url i) = true)
    (ht : threshold < 2 ^ 63) (hcert : numCert < 2 ^ 63) (hm : GoInt mmd) (hno : ∀ rest, Role.ca.addr ips 0 ≠ go!"localhost:" ++ rest) (ips2 : IPs) :
    ∃ d disk, generateAll K numG threshold numL numCA numCert = some d ∧
      mapAllFiles F K ips numCA numL numG (diskOf F mmd mrd d) = (disk, true) ∧
      (mapAllFiles F K ips2 numCA numL numG disk).2 = false ∧ (mapAllFiles F K ips2 numCA numL numG disk).1.loggers = disk.loggers ∧
      (mapAllFiles F K ips2 numCA numL numG disk).1.monitors = disk.monitors ∧
      (mapAllFiles F K ips2 numCA numL numG disk).1.gossipers = disk.gossipers := by
  obtain ⟨d, d', disk, h0, h1, h2, hs, _⟩ := C144_mapped_start_partial K ips hF hK hips rsa bls numG threshold numL numCA numCert mmd mrd
    hg hg' hl hl' hc hid ht hcert hm
  obtain ⟨d2, d2', k0, k1, a1, _, _, _, n1, _, _, _, _⟩ :=
    C89_mapped_deployment_interoperates K hK rsa bls ips numG threshold numL numCA numCert hg hg' hl hl' hc hid
  rw [h0] at k0
  cases k0
  rw [h1] at k1
  cases k1
  have hlen : disk.cas.length = numCA := hs.counts.1.trans n1
  obtain ⟨t, htt⟩ : ∃ t, disk.cas[0]? = some t := ⟨disk.cas[0], List.getElem?_eq_getElem (by omega)⟩
  obtain ⟨f, hf⟩ := getElem?_same_length hs.counts.1 htt
  obtain ⟨c, e, hsame⟩ := hs.cas 0 f t hf htt
  have hself : c.selfID = Role.ca.addr ips 0 := hsame.selfID.trans (a1 0 f hf)
  have hcr : (rewriteCrypto F K ips2 1 t.crypto).2 = false := by
    cases hx : t.crypto with
    | none => rfl
    | some x =>
      have hload : (newCryptoConfig K ((confJson F).dec x)).1 = c := by
        have := startCA_crypto e
        rw [hx] at this
        exact Option.some.inj this
      have : mapCrypto K ips2 1 ((confJson F).dec x) = none := by
        unfold mapCrypto
        simp only [hload, hself, hostsFor_none ips2 _ hno, Option.bind_eq_bind, Option.bind_none]
      simp only [rewriteCrypto, this]
  have hstep : (mapCAFiles F K ips2 1 t).2 = false := by
    unfold mapCAFiles rewriteThree
    simp only
    split
    · split
      · exact hcr
      · rfl
    · rfl
  have hstop := mapDirs_stop (mapCAFiles F K ips2) disk.cas t htt hstep numCA hc0
  refine ⟨d, disk, h0, h2, ?_, ?_, ?_, ?_⟩ <;> simp [mapAllFiles, hstop]

theorem mapDirs_first (step : Int → Texts → Texts × Bool) (l : List Texts) (num : Nat) (hn : 0 < num)
    (h : step 1 ((l[0]?).getD ⟨none, none, none⟩) = ((l[0]?).getD ⟨none, none, none⟩, false)) : mapDirs step num l = (l, false) := by
  have hset : l.set 0 ((l[0]?).getD ⟨none, none, none⟩) = l := by cases l <;> rfl
  obtain ⟨n, rfl⟩ : ∃ n, num = n + 1 := ⟨num - 1, by omega⟩
  unfold mapDirs
  rw [List.range_succ_eq_map, List.foldl_cons]
  have e : ((0 : Nat) : Int) + 1 = 1 := rfl
  simp only [if_true, e, h, hset]
  have : ∀ (r : List Nat), r.foldl (fun (acc : List Texts × Bool) (i : Nat) =>
      if acc.2 then
        ((acc.1.set i (step ((i : Int) + 1) ((acc.1[i]?).getD ⟨none, none, none⟩)).1, (step ((i : Int) + 1) ((acc.1[i]?).getD ⟨none, none, none⟩)).2))
      else acc) (l, false) = (l, false) := by
    intro r
    induction r with
    | nil => rfl
    | cons a r ih => rw [List.foldl_cons]; simpa using ih
  exact this _

variable {F} in
/-- C144 fails: `Map_all` is not all or nothing. Where the private configuration of the first monitor is missing it ends there: CAs and
loggers have their new addresses, monitors and gossipers their old ones. -/
theorem C144_violated_half_mapped (hF : F.Laws) (hK : KeyLaws K) (hips : AsciiHosts ips) (rsa : L.RsaLaws K.rsaPub)
    (bls : L.BlsLaws K.blsPub) (numG threshold numL numCA numCert : Nat) (mmd mrd : Int) (hg : 2 ≤ numG) (hg' : numG ≤ 1000)
    (hl : 0 < numL) (hl' : numL ≤ 1000) (hc : numCA ≤ 1000) (hid : ∀ i, i < numG → K.blsIdOk (Role.gossiper.url i) = true)
    (ht : threshold < 2 ^ 63) (hcert : numCert < 2 ^ 63) (hm : GoInt mmd) (ms : List Texts)
    (hms : ∀ t, ms[0]? = some t → t.priv = none) :
    ∃ d disk, generateAll K numG threshold numL numCA numCert = some d ∧
      mapAllFiles F K ips numCA numL numG (diskOf F mmd mrd d) = (disk, true) ∧
      mapAllFiles F K ips numCA numL numG { diskOf F mmd mrd d with monitors := ms } =
        (⟨disk.cas, disk.loggers, ms, (diskOf F mmd mrd d).gossipers⟩, false) := by
  obtain ⟨d, d', disk, h0, h1, h2, hs, _⟩ := C144_mapped_start_partial K ips hF hK hips rsa bls numG threshold numL numCA numCert mmd mrd
    hg hg' hl hl' hc hid ht hcert hm
  refine ⟨d, disk, h0, h2, ?_⟩
  have hfirst : mapDirs (mapMonitorFiles F K ips) numG ms = (ms, false) := by
    refine mapDirs_first _ _ _ (by omega) ?_
    have hp : ((ms[0]?).getD ⟨none, none, none⟩ : Texts).priv = none := by
      cases hx : ms[0]? with
      | none => rfl
      | some t => exact hms t hx
    simp only [mapMonitorFiles, rewriteThree, hp]
    rfl
  unfold mapAllFiles at h2 ⊢
  simp only at h2 ⊢
  split at h2
  · rename_i ha
    split at h2
    · rename_i hb
      split at h2
      · rename_i hc'
        have hd := congrArg Prod.fst h2
        simp only at hd
        rw [if_pos ha, if_pos hb, hfirst, if_neg (fun h => Bool.noConfusion h), ← hd]
      · cases congrArg Prod.snd h2
    · cases congrArg Prod.snd h2
  · cases congrArg Prod.snd h2

end

end Wire

namespace Ref
open Gen Wire

def smallIPs : IPs := ipTemplate 1 1 2 (go!"10.0.0.") 11 (go!"10.0.0.") 21 (go!"10.0.0.") 31

/-- The file of a small table. -/
example : writeIPs smallIPs = go!"{\n \"monitor_ip_map\": {\n  \"0\": \"10.0.0.31\",\n  \"1\": \"10.0.0.32\"\n },\n \"gossiper_ip_map\": {\n  \"0\": \"10.0.0.31\",\n  \"1\": \"10.0.0.32\"\n },\n \"logger_ip_map\": {\n  \"0\": \"10.0.0.21\"\n },\n \"ca_ip_map\": {\n  \"0\": \"10.0.0.11\"\n }\n}" := by
  decide +kernel

def shownIPs (t : Option IPs) : Option (List (Int × Str) × List (Int × Str) × List (Int × Str) × List (Int × Str)) :=
  t.map fun t => (t.monitor.entries, t.gossiper.entries, t.logger.entries, t.ca.entries)

set_option synthInstance.maxSize 1000 in
example : (shownIPs (readIPs (some (writeIPs smallIPs)))).map (fun x => (x.1.length, x.2.2.2)) = some (2, [(0, go!"10.0.0.11")]) := by
  decide +kernel

set_option synthInstance.maxSize 1000 in
/-- A name that is no number, a value that is no string, and a truncated file: what could be read is kept. -/
example : ((readIPs (some (go!"{\"ca_ip_map\":{\"0\":\"a\",\"x\":\"b\",\"+7\":\"c\",\"-2\":3}}"))).map fun t => (t.ca.get 0, t.ca.get 7, t.ca.get (-2), t.ca.entries.length)) =
      some (some (go!"a"), some (go!"c"), some [], 3) ∧
    shownIPs (readIPs (some ((writeIPs smallIPs).take 60))) = some ([], [], [], []) := by decide +kernel

/-- Values that do not fit are no numbers. -/
example : parseInt (go!"9223372036854775807") = some (2 ^ 63 - 1) ∧ parseInt (go!"9223372036854775808") = none ∧
    parseInt (go!"-9223372036854775808") = some (-2 ^ 63) ∧ parseInt (go!"") = none ∧ parseInt (go!"+-1") = none := by decide +kernel

theorem smallIPs_ascii : AsciiHosts smallIPs := by
  have : ∀ (r : Role) (i : Nat), i < 2 → Ascii (r.host smallIPs i) := by
    intro r i hi
    have : i = 0 ∨ i = 1 := by omega
    rcases this with rfl | rfl <;> cases r <;> exact ascii_lit (by decide +kernel)
  intro r i
  by_cases hi : i < 2
  · exact this r i hi
  · have : r.host smallIPs i = [] := by
      have hn : ∀ (n : Nat) (mask : Str) (off : Nat), n ≤ 2 → ((GoMap.empty : GoMap Int Str).assignAll
          ((List.range n).map fun (i : Nat) => ((i : Int), mask ++ itoa (i + off)))).get (i : Int) = none := by
        intro n mask off hn
        cases hx : ((GoMap.empty : GoMap Int Str).assignAll
          ((List.range n).map fun (i : Nat) => ((i : Int), mask ++ itoa (i + off)))).get (i : Int) with
        | none => rfl
        | some v =>
          obtain ⟨j, hj, e, _⟩ := (template_map_get n mask off i v).1 hx
          omega
      cases r <;> simp only [Role.host, smallIPs, ipTemplate, hn _ _ _ (Nat.le_refl 2), hn 1 _ _ (by omega)] <;> rfl
    rw [this]
    intro c hc
    cases hc

/-- C144: the table is written, read back and applied to the files of a deployment. -/
example : ∃ t, readIPs (some (writeIPs smallIPs)) = some t ∧ Role.monitor.addr t 1 = go!"10.0.0.32:8001" := by
  obtain ⟨t, h, _, _, _, hm, _⟩ := C144_template_partial 1 1 2 (by omega) (by omega) (by omega) (go!"10.0.0.") (go!"10.0.0.") (go!"10.0.0.")
    (ascii_lit (by decide)) (ascii_lit (by decide)) (ascii_lit (by decide)) 11 21 31
  exact ⟨t, h, (hm 1 (by omega)).trans (by decide +kernel)⟩

example : ∃ d disk, generateAll keys 2 2 1 1 4 = some d ∧ mapAllFiles form keys smallIPs 1 1 2 (diskOf form 60 30 d) = (disk, true) ∧
    (∀ a b, RunsFrom form keys disk a → RunsFrom form keys disk b → ∀ msg sig, a.sign msg = some sig → b.verify msg sig = .ok) := by
  obtain ⟨d, disk, h1, h2, _, _, _, _, h3, _⟩ := C144_mapped_interoperate_partial keys smallIPs formLaws keyLaws smallIPs_ascii rsaLaws blsLaws
    2 2 1 1 4 60 30 (by omega) (by omega) (by omega) (by omega) (by omega) (ids_ok 2 (by omega)) (by omega) (by omega) ⟨by omega, by omega⟩
  exact ⟨d, disk, h1, h2, h3⟩

def mappedGos : Option (Disk × Bool) := (generateAll keys 2 2 1 1 4).map fun d => mapAllFiles form keys smallIPs 1 1 2 (diskOf form 60 30 d)

set_option synthInstance.maxSize 1000 in
/-- The second gossiper, started from the mapped files. -/
example : mappedGos.map (fun r => (r.2, r.1.gossipers[1]?.map fun t => shownGos (startGossiper form keys t))) =
    some (true, some (some (some ⟨5, 60, 60, [go!"10.0.0.31:9000", go!"10.0.0.32:9001"], [go!"10.0.0.31:8000", go!"10.0.0.32:8001"]⟩,
      some ⟨[go!"10.0.0.31:9000"], go!"10.0.0.32:8001", go!"9001"⟩, some (go!"10.0.0.32:9001", go!"rsa1")))) := by decide +kernel

/-- A second run ends at once. -/
example : mappedGos.map (fun r => (mapAllFiles form keys testIPs 1 1 2 r.1).2) = some false := by decide +kernel

/-- The monitors' files are missing: the gossipers keep their local addresses, the CA does not. -/
example : ((generateAll keys 2 2 1 1 4).map fun d =>
    let r := mapAllFiles form keys smallIPs 1 1 2 { diskOf form 60 30 d with monitors := [] }
    (r.2, decide (r.1.gossipers.map (·.priv) = (diskOf form 60 30 d).gossipers.map (·.priv)),
      decide (r.1.cas.map (·.priv) = (diskOf form 60 30 d).cas.map (·.priv)))) = some (false, true, false) := by decide +kernel

/-- More processes than were generated: the run ends, after having rewritten everything in front. -/
example : ((generateAll keys 2 2 1 1 4).map fun d => (mapAllFiles form keys smallIPs 1 2 2 (diskOf form 60 30 d)).2) = some false := by
  decide +kernel

end Ref
end CTng
