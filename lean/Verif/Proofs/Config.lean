import Verif.Model.Config
import Verif.Proofs.Wire
import Verif.Proofs.JsonIndent
import Verif.Props.CryptoIO
import Verif.Props.Deploy
/- Configuration files are read back as they were written. -/
set_option autoImplicit false

namespace CTng
namespace Wire
open Json Gen

/-! ### Structs, member by member -/

theorem fieldIndex_name (names : List Str) (hn : names.Nodup) (i : Nat) (n : Str) (h : names[i]? = some n) :
    fieldIndex names n = some i := by
  have : names.findIdx? (· = n) = some i := by
    rw [List.findIdx?_eq_some_iff_getElem]
    obtain ⟨hi, he⟩ := List.getElem?_eq_some_iff.1 h
    refine ⟨hi, by simpa using he, ?_⟩
    intro j hj
    simp only [decide_eq_true_eq]
    intro e
    have := (List.getElem_inj (h₀ := by omega) (h₁ := hi) hn).1 (e.trans he.symm)
    omega
  unfold fieldIndex
  rw [this]

/-- The members of a struct in the order of its fields. -/
def setAll {α : Type} (set : Nat → Dec α) : Nat → List Json → α × Bool → α × Bool
  | _, [], acc => acc
  | i, v :: t, acc => let r := set i acc.1 v; setAll set (i + 1) t (r.1, acc.2 && r.2)

theorem foldl_members {α : Type} (names : List Str) (hn : names.Nodup) (set : Nat → Dec α) :
    ∀ (rest : List Str) (vals : List Json) (i : Nat) (acc : α × Bool), rest = names.drop i → vals.length = rest.length →
      ((rest.zip vals).foldl (dMember names set) acc) = setAll set i vals acc := by
  intro rest
  induction rest with
  | nil =>
    intro vals i acc _ hl
    cases vals with
    | nil => rfl
    | cons v t => simp at hl
  | cons n r ih =>
    intro vals i acc hr hl
    cases vals with
    | nil => simp at hl
    | cons v t =>
      have hi : names[i]? = some n := by
        have : (names.drop i)[0]? = some n := by rw [← hr]; rfl
        rwa [List.getElem?_drop] at this
      rw [List.zip_cons_cons, List.foldl_cons]
      have : dMember names set acc (n, v) = ((set i acc.1 v).1, acc.2 && (set i acc.1 v).2) := by
        unfold dMember
        rw [fieldIndex_name names hn i n hi]
      rw [this, ih t (i + 1) _ ?_ (by simpa using hl)]
      · rfl
      · have : (names.drop i).drop 1 = names.drop (i + 1) := by rw [List.drop_drop]
        rw [← this, ← hr]
        rfl

theorem cleanMembers_zip (names : List Str) (hs : ∀ n ∈ names, sanitize n = n) :
    ∀ vals : List Json, cleanMembers (names.zip vals) = names.zip (vals.map clean) := by
  induction names with
  | nil => intro vals; rfl
  | cons n r ih =>
    intro vals
    cases vals with
    | nil => rfl
    | cons v t =>
      simp only [List.zip_cons_cons, List.map_cons, cleanMembers, cleanMember, hs n (by simp)]
      rw [ih (fun m hm => hs m (by simp [hm]))]

/-- Reading a struct written member by member. -/
theorem dStruct_zip {α : Type} (names : List Str) (hn : names.Nodup) (hs : ∀ n ∈ names, sanitize n = n) (set : Nat → Dec α)
    (z : α) (vals : List Json) (hl : vals.length = names.length) :
    dStruct names set z (clean (.obj (names.zip vals))) = setAll set 0 (vals.map clean) (z, true) := by
  rw [clean, cleanMembers_zip names hs]
  exact foldl_members names hn set names _ 0 _ rfl (by simpa using hl)

theorem numOk_zip (names : List Str) : ∀ vals : List Json, (∀ v ∈ vals, NumOk v) → NumOk (.obj (names.zip vals)) := by
  induction names with
  | nil => intro _ _; trivial
  | cons n r ih =>
    intro vals h
    cases vals with
    | nil => trivial
    | cons v t => exact ⟨h v (by simp), ih t fun w hw => h w (by simp [hw])⟩

/-! ### Numbers -/

theorem itoa_head_digit (n : Nat) : ∃ c t, itoa n = c :: t ∧ c ≠ 45 := by
  have hd := itoa_digit n
  cases h : itoa n with
  | nil => exact absurd h (itoa_ne_nil n)
  | cons c t =>
    refine ⟨c, t, rfl, ?_⟩
    rintro rfl
    have := hd 45 (by rw [h]; simp)
    exact absurd this (by decide)

theorem intTok_itoa (n : Int) : intTok (itoaInt n) = some n := by
  unfold itoaInt
  split
  · show intTok (45 :: itoa n.natAbs) = some n
    simp only [intTok, atoi_itoa, Option.map_some]
    exact congrArg some (by omega)
  · obtain ⟨c, t, h, hc⟩ := itoa_head_digit n.natAbs
    have : intTok (itoa n.natAbs) = (atoi (itoa n.natAbs)).map Int.ofNat := by
      rw [h]
      unfold intTok
      split
      · next heq => cases heq; exact absurd rfl hc
      · rfl
    rw [this, atoi_itoa, Option.map_some]
    exact congrArg some (by simp only [Int.ofNat_eq_natCast]; omega)

theorem clean_jInt (n : Int) : clean (jInt n) = jInt n := rfl

theorem clean_jBig (n : Option Int) : clean (jBig n) = jBig n := by cases n <;> rfl

theorem numOk_jInt (n : Int) : NumOk (jInt n) := by
  unfold jInt itoaInt
  split
  · right
    left
    refine ⟨n.natAbs - 1, ?_⟩
    rw [show n.natAbs - 1 + 1 = n.natAbs by omega]
    rfl
  · exact .inl ⟨_, rfl⟩

theorem numOk_jBig (n : Option Int) : NumOk (jBig n) := by
  cases n
  · trivial
  · exact numOk_jInt _

theorem dInt_read (cur n : Int) (h : GoInt n) : dInt cur (jInt n) = (n, true) := by
  unfold dInt jInt
  simp only [intTok_itoa]
  exact if_pos h

theorem dBig_read (cur : Option Int) (n : Option Int) : dBig cur (jBig n) = (n, true) := by
  cases n with
  | none => rfl
  | some n => unfold dBig jBig jInt; simp only [intTok_itoa]

/-! ### Maps -/

theorem dStr_read (cur s : Str) (h : Utf8 s) : dStr cur (clean (.str s)) = (s, true) := by
  simp only [clean, dStr]
  rw [h]

theorem foldl_map {V : Type} (z : V) (d : Dec V) (f : V → Json) :
    ∀ (l : List (Str × V)) (m : GoMap Str V), (∀ e ∈ l, Utf8 e.1 ∧ d z (clean (f e.2)) = (e.2, true)) →
      (cleanMembers (l.map fun e => (e.1, f e.2))).foldl
        (fun acc m => let r := d z m.2; (acc.1.set m.1 r.1, acc.2 && r.2)) (m, true) = (m.assignAll l, true) := by
  intro l
  induction l with
  | nil => intro m _; rfl
  | cons e t ih =>
    intro m h
    obtain ⟨h1, h2⟩ := h e (by simp)
    simp only [List.map_cons, cleanMembers, cleanMember, List.foldl_cons, h2, Bool.and_self]
    rw [h1, ih (m.set e.1 e.2) fun x hx => h x (by simp [hx])]
    rfl

/-- A map is read back with the same entries. -/
theorem dMapOf_read {V : Type} (z : V) (d : Dec V) (f : V → Json) (m : GoMap Str V)
    (h : ∀ k v, m.get k = some v → Utf8 k ∧ d z (clean (f v)) = (v, true)) :
    ∃ m', dMapOf z d .empty (clean (jMap f m)) = (m', true) ∧ ∀ k, m'.get k = m.get k := by
  let l : List (Str × V) := (sortStr m.keys).filterMap fun k => (m.get k).map fun v => (k, v)
  have hl : ∀ k v, (k, v) ∈ l ↔ m.get k = some v := by
    intro k v
    simp only [l, List.mem_filterMap, Option.map_eq_some_iff, Prod.mk.injEq]
    constructor
    · rintro ⟨a, _, b, h1, rfl, rfl⟩; exact h1
    · intro h1
      refine ⟨k, (sortStr_perm _).mem_iff.2 ((GoMap.mem_keys_iff m k).2 ⟨v, h1⟩), v, h1, rfl, rfl⟩
  have hj : jMap f m = .obj (l.map fun e => (e.1, f e.2)) := by
    unfold jMap
    congr 1
    simp only [l]
    rw [List.map_filterMap]
    congr 1
    funext k
    cases m.get k <;> rfl
  refine ⟨GoMap.empty.assignAll l, ?_, ?_⟩
  · rw [hj, clean]
    exact foldl_map z d f l .empty fun e he => h e.1 e.2 ((hl e.1 e.2).1 he)
  · intro k
    apply option_ext_some
    intro v
    rw [assignAll_get l ?_ k v, hl]
    have : l.map (·.1) = sortStr m.keys := by
      simp only [l]
      rw [List.map_filterMap]
      have : ∀ q : List Str, (∀ k ∈ q, (m.get k).isSome = true) →
          (q.filterMap fun k => Option.map (·.1) ((m.get k).map fun v => (k, v))) = q := by
        intro q
        induction q with
        | nil => intro _; rfl
        | cons a t ih =>
          intro hq
          obtain ⟨v, hv⟩ := Option.isSome_iff_exists.1 (hq a (by simp))
          rw [List.filterMap_cons, hv]
          simp only [Option.map_some]
          rw [ih fun k hk => hq k (by simp [hk])]
      exact this _ fun k hk => Option.isSome_iff_exists.2 ((GoMap.mem_keys_iff m k).1 ((sortStr_perm _).mem_iff.1 hk))
    rw [this]
    exact (sortStr_perm _).nodup_iff.2 m.nodup

theorem numOk_jMap {V : Type} (f : V → Json) (m : GoMap Str V) (h : ∀ v, NumOk (f v)) : NumOk (jMap f m) := by
  unfold jMap
  generalize sortStr m.keys = q
  show NumOkMembers _
  induction q with
  | nil => trivial
  | cons a t ih =>
    rw [List.filterMap_cons]
    cases m.get a with
    | none => exact ih
    | some v => exact ⟨h v, ih⟩

/-! ### The structs -/

theorem clean_obj_names (names : List Str) (l : List (Str × Json)) (vals : List Json) (h : l = names.zip vals) :
    (Json.obj l) = .obj (names.zip vals) := by rw [h]

theorem dPub_read (p : PubNums) (h : GoInt p.e) : dPub pubZero (clean (pubJson p)) = (p, true) := by
  have := dStruct_zip pubNames (by decide +kernel) (by decide +kernel) (fun i p j =>
    match i with
    | 0 => ({ p with n := (dBig p.n j).1 }, (dBig p.n j).2)
    | _ => ({ p with e := (dInt p.e j).1 }, (dInt p.e j).2)) pubZero [jBig p.n, jInt p.e] rfl
  refine Eq.trans this ?_
  simp only [List.map_cons, List.map_nil, clean_jBig, clean_jInt, setAll, dBig_read, dInt_read _ _ h, Bool.and_self]

theorem numOk_pub (p : PubNums) : NumOk (pubJson p) := ⟨numOk_jBig _, numOk_jInt _, trivial⟩

theorem dCRT_read (c : CRTNums) : dCRT ⟨none, none, none⟩ (clean (crtJson c)) = (c, true) := by
  refine Eq.trans (dStruct_zip crtNames (by decide +kernel) (by decide +kernel) _ _ [jBig c.exp, jBig c.coeff, jBig c.r] rfl) ?_
  simp only [List.map_cons, List.map_nil, clean_jBig, setAll, dBig_read, Bool.and_self]

theorem numOk_crt (c : CRTNums) : NumOk (crtJson c) := ⟨numOk_jBig _, numOk_jBig _, numOk_jBig _, trivial⟩

theorem dList_clean {α : Type} (z : α) (d : Dec α) (f : α → Json) (l : List α) (h : ∀ x ∈ l, d z (clean (f x)) = (x, true)) :
    dList z d [] (clean (jList f l)) = (l, true) := by
  rw [clean_jList, dList_jList z d _ id l (by simpa using h), List.map_id]

theorem dPre_read (k0 k : PrivNums) (h0 : k0.crt = []) : dPre k0 (clean (preJson k)) =
    ({ k0 with dp := k.dp, dq := k.dq, qinv := k.qinv, crt := k.crt }, true) := by
  refine Eq.trans (dStruct_zip preNames (by decide +kernel) (by decide +kernel) _ _
    [jBig k.dp, jBig k.dq, jBig k.qinv, jList crtJson k.crt] rfl) ?_
  simp only [List.map_cons, List.map_nil, clean_jBig, setAll, dBig_read, Bool.and_self, h0,
    dList_clean _ dCRT crtJson k.crt fun c _ => dCRT_read c]

theorem dPriv_read (k : PrivNums) (h : GoInt k.e) : dPriv privZero (clean (privJson k)) = (k, true) := by
  refine Eq.trans (dStruct_zip privNames (by decide +kernel) (by decide +kernel) _ _
    [jBig k.n, jInt k.e, jBig k.d, jList jBig k.primes, preJson k] rfl) ?_
  have hp : dList none dBig [] (clean (jList jBig k.primes)) = (k.primes, true) :=
    dList_clean _ dBig jBig k.primes fun c _ => by rw [clean_jBig, dBig_read]
  simp only [List.map_cons, List.map_nil, clean_jBig, clean_jInt, setAll, dBig_read, dInt_read _ _ h, Bool.and_self, privZero,
    hp, dPre_read]

theorem numOk_priv (k : PrivNums) : NumOk (privJson k) :=
  ⟨numOk_jBig _, numOk_jInt _, numOk_jBig _, numOk_jList _ _ fun _ _ => numOk_jBig _,
    ⟨numOk_jBig _, numOk_jBig _, numOk_jBig _, numOk_jList _ _ fun c _ => numOk_crt c, trivial⟩, trivial⟩

/-! ### Stored crypto configurations -/

section
variable {L : Lib}

/-- The numbers determine the keys, and the exponent is a 64 bit integer. -/
structure RsaForm.Laws (F : RsaForm L) : Prop where
  pub : ∀ p, F.ofPub (F.pub p) = p
  priv : ∀ k, F.ofPriv (F.priv k) = k
  zeroPub : F.pub (F.ofPub pubZero) = pubZero
  zeroPriv : F.priv (F.ofPriv privZero) = privZero
  pubE : ∀ p, GoInt (F.pub p).e
  privE : ∀ k, GoInt (F.priv k).e

theorem dRsaPub_read {F : RsaForm L} (hF : F.Laws) (p : L.RsaPub) :
    dRsaPub F (F.ofPub pubZero) (clean (pubJson (F.pub p))) = (p, true) := by
  simp only [dRsaPub, hF.zeroPub, dPub_read _ (hF.pubE p), hF.pub]

theorem dRsaPriv_read {F : RsaForm L} (hF : F.Laws) (p : L.RsaPriv) :
    dRsaPriv F (F.ofPriv privZero) (clean (privJson (F.priv p))) = (p, true) := by
  simp only [dRsaPriv, hF.zeroPriv, dPriv_read _ (hF.privE p), hF.priv]

theorem numOk_stored (F : RsaForm L) (s : StoredConfig L) : NumOk (storedJson F s) :=
  ⟨trivial, numOk_jInt _, numOk_jInt _, numOk_itoa _, trivial, trivial, numOk_jMap _ _ fun _ => numOk_pub _, numOk_priv _,
    numOk_jMap _ _ fun _ => trivial, trivial, trivial⟩

theorem dStored_read {F : RsaForm L} (hF : F.Laws) (s : StoredConfig L) (ha : s.Writable) :
    ∃ s', dStored F (storedZero F) (clean (storedJson F s)) = (s', true) ∧ SameStored s' s := by
  obtain ⟨m1, h1, e1⟩ := dMapOf_read (F.ofPub pubZero) (dRsaPub F) (fun p => pubJson (F.pub p)) s.signPublicMap
    fun k v hk => ⟨Utf8.of_ascii (ha.sign k v hk), dRsaPub_read hF v⟩
  obtain ⟨m2, h2, e2⟩ := dMapOf_read [] dBytes (fun b => .str (b64enc b)) s.thresholdPublicMap
    fun k v hk => ⟨Utf8.of_ascii (ha.thr k v hk), dBytes_read [] v⟩
  refine ⟨{ s with signPublicMap := m1, thresholdPublicMap := m2 }, ?_, ⟨rfl, rfl, rfl, rfl, rfl, rfl, e1, rfl, e2, rfl⟩⟩
  refine Eq.trans (dStruct_zip storedNames (by decide +kernel) (by decide +kernel) _ _
    [.str s.selfID, jInt s.threshold, jInt s.n, .num (itoa s.hashScheme), .str s.signScheme, .str s.thresholdScheme,
      jMap (fun p => pubJson (F.pub p)) s.signPublicMap, privJson (F.priv s.signSecretKey),
      jMap (fun b => .str (b64enc b)) s.thresholdPublicMap, .str (b64enc s.thresholdSecretKey)] rfl) ?_
  simp only [List.map_cons, List.map_nil, clean_jInt, setAll, storedZero, dInt_read _ _ ha.threshold, dInt_read _ _ ha.n,
    dNat_read _ _ _ ha.hashScheme, dStr_read _ _ (Utf8.of_ascii ha.self), dStr_read _ _ (Utf8.of_ascii ha.schemes.1),
    dStr_read _ _ (Utf8.of_ascii ha.schemes.2), h1, h2, dRsaPriv_read hF, dBytes_read, Bool.and_self]

end

/-- Reading what MarshalIndent wrote. -/
theorem unmarshal_indent {α : Type} (z : α) (d : Dec α) (pre ind : Str) (hp : Blank pre) (hi : Blank ind) (j : Json) (h : NumOk j) :
    unmarshal z d (marshalIndent pre ind j) = d z (clean j) := by
  simp only [unmarshal, parse_marshalIndent pre ind hp hi j h]

/-! ### Private and public configurations -/

/-- A list of strings JSON keeps. -/
def Utf8s (l : List Str) : Prop := ∀ s ∈ l, Utf8 s

theorem dStrs_read (l : List Str) (h : Utf8s l) : dList [] dStr [] (clean (jStrs l)) = (l, true) :=
  dList_clean [] dStr Json.str l fun s hs => dStr_read [] s (h s hs)

theorem numOk_jStrs (l : List Str) : NumOk (jStrs l) := numOk_jList _ _ fun _ _ => trivial

theorem dCAPriv_read (p : CAPriv) (h1 : Utf8 p.signer) (h2 : Utf8 p.port) (h3 : Utf8s p.loggers) (h4 : Utf8s p.monitors)
    (h5 : Utf8s p.gossipers) (h6 : p.certPerPeriod < 2 ^ 63) : dCAPriv caPrivZero (clean (caPrivJson p)) = (p, true) := by
  refine Eq.trans (dStruct_zip caPrivNames (by decide +kernel) (by decide +kernel) _ _
    [.str p.signer, .str p.port, jStrs p.loggers, jStrs p.monitors, jStrs p.gossipers, .num (itoa p.certPerPeriod)] rfl) ?_
  simp only [List.map_cons, List.map_nil, setAll, caPrivZero, dStr_read _ _ h1, dStr_read _ _ h2, dStrs_read _ h3, dStrs_read _ h4,
    dStrs_read _ h5, dNat_read _ _ _ h6, Bool.and_self]

theorem dLogPriv_read (p : LoggerPriv) (h1 : Utf8 p.signer) (h2 : Utf8 p.port) (h3 : Utf8s p.cas) (h4 : Utf8s p.monitors)
    (h5 : Utf8s p.gossipers) : dLogPriv logPrivZero (clean (logPrivJson p)) = (p, true) := by
  refine Eq.trans (dStruct_zip logPrivNames (by decide +kernel) (by decide +kernel) _ _
    [.str p.signer, .str p.port, jStrs p.cas, jStrs p.monitors, jStrs p.gossipers] rfl) ?_
  simp only [List.map_cons, List.map_nil, setAll, logPrivZero, dStr_read _ _ h1, dStr_read _ _ h2, dStrs_read _ h3,
    dStrs_read _ h4, dStrs_read _ h5, Bool.and_self]

theorem dMonPriv_read (p : MonitorPriv) (h1 : Utf8s p.cas) (h2 : Utf8s p.loggers) (h3 : Utf8 p.signer) (h4 : Utf8 p.gossiperURL)
    (h5 : Utf8 p.inboundPort) (h6 : Utf8 p.port) : dMonPriv monPrivZero (clean (monPrivJson p)) = (p, true) := by
  refine Eq.trans (dStruct_zip monPrivNames (by decide +kernel) (by decide +kernel) _ _
    [jStrs p.cas, jStrs p.loggers, .str p.signer, .str p.gossiperURL, .str p.inboundPort, .str p.port] rfl) ?_
  simp only [List.map_cons, List.map_nil, setAll, monPrivZero, dStrs_read _ h1, dStrs_read _ h2, dStr_read _ _ h3,
    dStr_read _ _ h4, dStr_read _ _ h5, dStr_read _ _ h6, Bool.and_self]

theorem dGosPriv_read (p : GossiperPriv) (h1 : Utf8s p.connected) (h2 : Utf8 p.ownerURL) (h3 : Utf8 p.port) :
    dGosPriv gosPrivZero (clean (gosPrivJson p)) = (p, true) := by
  refine Eq.trans (dStruct_zip gosPrivNames (by decide +kernel) (by decide +kernel) _ _
    [jStrs p.connected, .str p.ownerURL, .str p.port] rfl) ?_
  simp only [List.map_cons, List.map_nil, setAll, gosPrivZero, dStrs_read _ h1, dStr_read _ _ h2, dStr_read _ _ h3, Bool.and_self]

theorem dPubConf_read (p : PubConf) (h1 : Utf8s p.cas) (h2 : Utf8s p.loggers) (h3 : GoInt p.mmd) (h4 : GoInt p.mrd)
    (h5 : Utf8s p.httpVers) : dPubConf pubConfZero (clean (pubConfJson p)) = (p, true) := by
  refine Eq.trans (dStruct_zip pubConfNames (by decide +kernel) (by decide +kernel) _ _
    [jStrs p.cas, jStrs p.loggers, jInt p.mmd, jInt p.mrd, jStrs p.httpVers] rfl) ?_
  simp only [List.map_cons, List.map_nil, setAll, pubConfZero, dStrs_read _ h1, dStrs_read _ h2, clean_jInt, dInt_read _ _ h3,
    dInt_read _ _ h4, dStrs_read _ h5, Bool.and_self]

theorem dMonPub_read (p : MonPub) (h1 : Utf8s p.cas) (h2 : Utf8s p.loggers) (h3 : GoInt p.wait) (h4 : GoInt p.mmd)
    (h5 : GoInt p.mrd) : dMonPub monPubZero (clean (monPubJson p)) = (p, true) := by
  refine Eq.trans (dStruct_zip monPubNames (by decide +kernel) (by decide +kernel) _ _
    [jStrs p.cas, jStrs p.loggers, jInt p.wait, jInt p.mmd, jInt p.mrd] rfl) ?_
  simp only [List.map_cons, List.map_nil, setAll, monPubZero, dStrs_read _ h1, dStrs_read _ h2, clean_jInt, dInt_read _ _ h3,
    dInt_read _ _ h4, dInt_read _ _ h5, Bool.and_self]

theorem dGosPub_read (p : GosPub) (h1 : GoInt p.wait) (h2 : GoInt p.mmd) (h3 : GoInt p.mrd) (h4 : Utf8s p.gossipers)
    (h5 : Utf8s p.signers) : dGosPub gosPubZero (clean (gosPubJson p)) = (p, true) := by
  refine Eq.trans (dStruct_zip gosPubNames (by decide +kernel) (by decide +kernel) _ _
    [jInt p.wait, jInt p.mmd, jInt p.mrd, jStrs p.gossipers, jStrs p.signers] rfl) ?_
  simp only [List.map_cons, List.map_nil, setAll, gosPubZero, dStrs_read _ h4, dStrs_read _ h5, clean_jInt, dInt_read _ _ h1,
    dInt_read _ _ h2, dInt_read _ _ h3, Bool.and_self]

theorem dClient_read (z p : ClientConf) (hz : z.monitors = []) (h1 : Utf8s p.monitors) (h2 : Utf8 p.url) (h3 : Utf8 p.port)
    (h4 : GoInt p.mmd) (h5 : GoInt p.mrd) (h6 : Utf8 p.sthPath) (h7 : Utf8 p.crvPath) (h8 : Utf8 p.pomPath) :
    dClient z (clean (clientJson p)) = (p, true) := by
  refine Eq.trans (dStruct_zip clientNames (by decide +kernel) (by decide +kernel) _ _
    [jStrs p.monitors, .str p.url, .str p.port, jInt p.mmd, jInt p.mrd, .str p.sthPath, .str p.crvPath, .str p.pomPath] rfl) ?_
  simp only [List.map_cons, List.map_nil, setAll, hz, dStrs_read _ h1, dStr_read _ _ h2, dStr_read _ _ h3, clean_jInt,
    dInt_read _ _ h4, dInt_read _ _ h5, dStr_read _ _ h6, dStr_read _ _ h7, dStr_read _ _ h8, Bool.and_self]

/-! ### Loading -/

theorem blank_space : Blank (go!" ") := by
  intro c hc
  have : c = 32 := by simpa using hc
  subst this
  decide

/-- Loading a struct Gen wrote. -/
theorem loadConf_genText {α : Type} (z : α) (d : Dec α) (l : List (Str × Json)) (hn : NumOk (.obj l)) (a : α)
    (h : d z (clean (.obj l)) = (a, true)) : loadConf z d (some (genText (.obj l))) = .running (some a) := by
  unfold loadConf genText
  simp only [unmarshal_indent _ _ _ _ blank_space blank_space _ hn]
  have : dPtr z d (some z) (clean (.obj l)) = (some a, true) := by
    simp only [clean] at h ⊢
    simp only [dPtr, Option.getD_some, h]
  rw [this]
  rfl

/-- What a loaded configuration is. -/
theorem loadConf_running {α : Type} (z : α) (d : Dec α) (file : Option Str) (p : Option α) :
    loadConf z d file = .running p ↔ ∃ t j, file = some t ∧ Json.parse t = some j ∧
      ((j = .null ∧ p = none) ∨ (j ≠ .null ∧ ∃ a, d z j = (a, true) ∧ p = some a)) := by
  cases file with
  | none => simp [loadConf]
  | some t =>
    cases hp : Json.parse t with
    | none => simp [loadConf, unmarshal, hp]
    | some j =>
      have hu : unmarshal (some z) (dPtr z d) t = dPtr z d (some z) j := by simp only [unmarshal, hp]
      have hc : (∃ t' j', some t = some t' ∧ Json.parse t' = some j' ∧
          ((j' = .null ∧ p = none) ∨ (j' ≠ .null ∧ ∃ a, d z j' = (a, true) ∧ p = some a))) ↔
          ((j = .null ∧ p = none) ∨ (j ≠ .null ∧ ∃ a, d z j = (a, true) ∧ p = some a)) := by
        constructor
        · rintro ⟨t', j', ht, hj', h⟩
          cases ht
          rw [hp] at hj'
          cases hj'
          exact h
        · exact fun h => ⟨t, j, rfl, hp, h⟩
      rw [hc]
      by_cases hj : j = .null
      · subst hj
        simp [loadConf, hu, dPtr, eq_comm]
      · have : dPtr z d (some z) j = (some (d z j).1, (d z j).2) := by
          cases j <;> first | exact absurd rfl hj | rfl
        simp only [loadConf, hu, this, hj, false_and, false_or, ne_eq, not_false_eq_true, true_and]
        constructor
        · intro h
          split at h
          · next h2 =>
            injection h with h
            exact ⟨(d z j).1, by rw [← h2], h.symm⟩
          · cases h
        · rintro ⟨a, h, rfl⟩
          simp [h]

theorem loadConf_no_panic {α : Type} (z : α) (d : Dec α) (file : Option Str) : loadConf z d file ≠ .panic := by
  unfold loadConf
  cases file with
  | none => simp
  | some t => simp only; split <;> simp

/-! ### Crypto configurations -/

section
variable {L : Lib}

theorem confJson_laws {F : RsaForm L} (hF : F.Laws) : (confJson F).Laws := by
  intro s hs
  obtain ⟨s', h1, h2⟩ := dStored_read hF s hs
  have hb : Blank (go!"  ") := by
    intro c hc
    have : c = 32 := by simpa using hc
    subst this
    decide
  show SameStored (unmarshal (storedZero F) (dStored F) (Json.marshalIndent [] (go!"  ") (storedJson F s))).1 s
  rw [unmarshal_indent _ _ [] _ (by intro c hc; cases hc) hb _ (numOk_stored F s), h1]
  exact h2

theorem dec_genText {F : RsaForm L} (hF : F.Laws) (s : StoredConfig L) (hs : s.Writable) :
    SameStored ((confJson F).dec (genText (storedJson F s))) s := by
  obtain ⟨s', h1, h2⟩ := dStored_read hF s hs
  show SameStored (unmarshal (storedZero F) (dStored F) (genText (storedJson F s))).1 s
  unfold genText
  rw [unmarshal_indent _ _ _ _ blank_space blank_space _ (numOk_stored F s), h1]
  exact h2

theorem newCryptoConfig_same (K : KeyLib L) (a b : StoredConfig L) (h : SameStored a b)
    (hb : ∀ k v, b.thresholdPublicMap.get k = some v → ∃ p, K.pubDe v = some p) :
    SameConfig (newCryptoConfig K a).1 (newCryptoConfig K b).1 := by
  obtain ⟨_, a1, a2, a3, a4, a5, a6, a7, a8, a9, a10⟩ := newCryptoConfig_fields K a fun k v hk =>
    hb k v (by rw [← h.thresholdPublicMap]; exact hk)
  obtain ⟨_, b1, b2, b3, b4, b5, b6, b7, b8, b9, b10⟩ := newCryptoConfig_fields K b hb
  refine ⟨?_, ?_, ?_, ?_, ?_, ?_, ?_, ?_, ?_, ?_⟩
  · rw [a1, b1, h.threshold]
  · rw [a2, b2, h.n]
  · rw [a3, b3, h.hashScheme]
  · rw [a4, b4, h.signScheme]
  · rw [a5, b5, h.thresholdScheme]
  · rw [a6, b6, h.selfID]
  · rw [a7, b7]; exact h.signPublicMap
  · rw [a8, b8, h.signSecretKey]
  · intro k; rw [a9, b9, h.thresholdPublicMap]
  · rw [a10, b10, h.thresholdSecretKey]

end

end Wire
end CTng
