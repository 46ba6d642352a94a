import Verif.Model.CAKeys
import Verif.Props.CAIssues
import Verif.Props.Pem
import Verif.Props.CryptoIO
/- C160: the certificates and keys a CA saves. -/
set_option autoImplicit false

namespace CTng
open Pem

/-! ### Specification -/

section
variable {K : Type}

/-- The number of certificates issued so far and, while a round is under way, the number of its first certificate and its keys. -/
def roundUnderWay (n : Nat) : List (KeyedEvent K) → Nat × Option (Nat × (Nat → K)) → Nat × Option (Nat × (Nat → K))
  | [], r => r
  | .start sk :: t, r => roundUnderWay n t (r.1 + n, some (r.1 + 1, sk))
  | .finish _ _ :: t, r => roundUnderWay n t (r.1, none)
  | .quiet _ _ :: t, r => roundUnderWay n t r

/-- No round begins before the one before it has ended; `o` tells whether a round is under way. -/
def RoundsApart : Bool → List (KeyedEvent K) → Prop
  | _, [] => True
  | o, .start _ :: t => o = false ∧ RoundsApart true t
  | _, .finish _ _ :: t => RoundsApart false t
  | o, .quiet _ _ :: t => RoundsApart o t

/-- The events other than the beginnings of rounds hold tree heads and proofs that JSON transports. -/
def PlainKeyed (evs : List (KeyedEvent K)) : Prop := ∀ e h, KeyedEvent.quiet e h ∈ evs → PlainEvents [e]

/-- Names of the files of the `j`-th certificate. -/
def savedAs (j : Nat) (ending : Str) : Str := go!"Testing Dummy " ++ itoa j ++ go!"_RID_" ++ itoa j ++ ending

end

/-! ### Keys by subject -/

section
variable {K : Type} (pubOf : K → Str)

theorem nSubjects_nodup (n offset : Nat) : (nSubjects n offset).Nodup := by
  unfold nSubjects
  rw [List.nodup_iff_pairwise_ne, List.pairwise_map]
  refine (List.pairwise_lt_range).imp ?_
  intro a b hab e
  simp only [dummySubject, List.append_cancel_left_eq] at e
  have := itoa_inj e
  omega

theorem nSubjects_get (n offset i : Nat) : (nSubjects n offset)[i]? = if i < n then some (dummySubject i offset) else none := by
  unfold nSubjects
  rw [List.getElem?_map]
  split
  · rename_i h; rw [List.getElem?_range h]; rfl
  · rename_i h; rw [List.getElem?_eq_none (by simpa using h)]; rfl

theorem dummySubject_inj {i j a b : Nat} (h : dummySubject i a = dummySubject j b) : i + a = j + b := by
  simp only [dummySubject, List.append_cancel_left_eq] at h
  exact itoa_inj h

theorem byIndex_get {V : Type} (f : Nat → V) (n offset : Nat) (k : Str) (v : V) :
    ((GoMap.empty : GoMap Str V).assignAll ((nSubjects n offset).zipIdx.map fun e => (e.1, f e.2))).get k = some v ↔
      ∃ i, i < n ∧ k = dummySubject i offset ∧ v = f i := by
  have hm : ((nSubjects n offset).zipIdx.map fun e => (e.1, f e.2)).map (·.1) = nSubjects n offset := by
    rw [List.map_map]
    show (nSubjects n offset).zipIdx.map Prod.fst = _
    exact List.zipIdx_map_fst ..
  rw [assignAll_get _ (by rw [hm]; exact nSubjects_nodup n offset)]
  simp only [List.mem_map, Prod.mk.injEq, Prod.exists]
  constructor
  · rintro ⟨a, i, hm, rfl, rfl⟩
    have := List.mem_zipIdx_iff_getElem?.1 hm
    simp only [nSubjects_get] at this
    split at this
    · rename_i hi
      exact ⟨i, hi, (Option.some.inj this).symm, rfl⟩
    · cases this
  · rintro ⟨i, hi, rfl, rfl⟩
    exact ⟨_, i, List.mem_zipIdx_iff_getElem?.2 (by simp [nSubjects_get, hi]), rfl, rfl⟩

theorem pubFor_eq (n counter : Nat) (sk : Nat → K) (i : Nat) (hi : i < n) : pubFor pubOf n counter sk i = pubOf (sk i) := by
  unfold pubFor nKeyPairs
  rw [(byIndex_get (fun i => pubOf (sk i)) n counter _ _).2 ⟨i, hi, rfl, rfl⟩]
  rfl

end

/-! ### The invariant -/

section
variable {L : Lib} {X : XLib} {K : Type} (pubOf : K → Str) (c : CAConf L)

/-- What holds of the pool and the keys, given what is under way. -/
def PoolOf (pubOf : K → Str) (n : Nat) (r : Nat × Option (Nat × (Nat → K))) (st : CAState × GoMap Str K) : Prop :=
  st.1.certCounter = r.1 + 1 ∧
  match r.2 with
  | none => st.1.pool = CertPool.new
  | some (first, sk) =>
    st.1.pool.certs.map (fun x => (x.subjectCN, x.publicKey)) = (List.range n).map (fun i => (dummySubject i first, pubOf (sk i))) ∧
    st.2 = (nKeyPairs pubOf (nSubjects n first) sk).2

theorem poi_holders (p : POI) (s : CAState) :
    (caReceivePOI X p s).pool.certs.map (fun x => (x.subjectCN, x.publicKey)) =
      s.pool.certs.map (fun x => (x.subjectCN, x.publicKey)) := by
  unfold caReceivePOI
  dsimp only
  split
  · rename_i target ht
    split
    · rename_i pool hp
      unfold CertPool.getBySKI at ht
      unfold CertPool.updateBySKI at hp
      split at ht
      · cases ht
      · rename_i i l hi
        rw [hi] at hp
        dsimp only at hp
        split at ht
        · cases ht
        · rename_i x hx
          cases ht
          split at hp
          · cases hp
            rw [List.map_set]
            have e : ((target.updateExt X ⟨readObj s.sthStorage p.loggerID, p⟩).subjectCN,
                (target.updateExt X ⟨readObj s.sthStorage p.loggerID, p⟩).publicKey) = (target.subjectCN, target.publicKey) := by
              unfold Cert.updateExt
              dsimp only
              split <;> rfl
            rw [e]
            apply List.ext_getElem?
            intro j
            rw [List.getElem?_set]
            split
            · rename_i hj
              subst hj
              rw [List.getElem?_map, hx]
              have := (List.getElem?_eq_some_iff.1 hx).1
              simp [this]
            · rfl
          · cases hp
    · rfl
  · rfl

theorem quiet_pool (root : Cert) (e : CAEvent) (h : e.quiet = true) (s s' : CAState) (hs : caStep X c root s e = some s') :
    s'.certCounter = s.certCounter ∧
    s'.pool.certs.map (fun x => (x.subjectCN, x.publicKey)) = s.pool.certs.map (fun x => (x.subjectCN, x.publicKey)) ∧
    (s.pool = CertPool.new → s'.pool = CertPool.new) := by
  cases e with
  | start pub => cases h
  | finish t pos => cases h
  | request t =>
    simp only [caStep, Option.some.injEq] at hs
    obtain ⟨n, hn⟩ := request_frame c t s
    rw [hn] at hs; subst hs
    exact ⟨rfl, rfl, id⟩
  | sth g =>
    simp only [caStep, Option.some.injEq] at hs
    obtain ⟨n, hn⟩ := sth_frame c g s
    rw [hn] at hs; subst hs
    exact ⟨rfl, rfl, id⟩
  | poi p =>
    simp only [caStep, Option.some.injEq] at hs
    refine ⟨?_, by rw [← hs]; exact poi_holders p s, fun h0 => ?_⟩
    · obtain ⟨n, hn⟩ := poi_frame X p s
      rw [hn] at hs; subst hs; rfl
    · subst hs
      unfold caReceivePOI
      rw [h0]
      exact h0
  | revoke i =>
    simp only [caStep, Option.some.injEq] at hs
    subst hs
    exact ⟨rfl, rfl, id⟩

theorem startRound_pool (hX : X.Laws) (hC : X.CertLaws) (root : Cert) (pub : Nat → Str) (s : CAState) (h0 : s.pool = CertPool.new) :
    (startRound X c root pub s).pool.certs.map (fun x => (x.subjectCN, x.publicKey)) =
      (List.range c.certPerPeriod).map (fun i => (dummySubject i s.certCounter, pub i)) := by
  have hl : (issueLoop X L.sha256 root c.signer pub s.certCounter c.certPerPeriod 0 s.certCounter).1 =
      (List.range c.certPerPeriod).map (issuedCert X c root pub s.certCounter) := by
    apply List.ext_getElem?
    intro j
    by_cases hj : j < c.certPerPeriod
    · rw [issueLoop_get _ _ _ _ _ _ _ _ _ hj, List.getElem?_map, List.getElem?_range hj, Nat.zero_add]
      rfl
    · rw [List.getElem?_eq_none (by rw [issueLoop_length]; omega), List.getElem?_eq_none (by simpa using hj)]
  have hn : (([] : List PEntry).map (·.name) ++
      (((issueLoop X L.sha256 root c.signer pub s.certCounter c.certPerPeriod 0 s.certCounter).1).map (Cert.toPrecert X)).map
        (·.rawSubject)).Nodup := by
    rw [hl, List.map_nil, List.nil_append, List.map_map, List.map_map, List.nodup_iff_pairwise_ne, List.pairwise_map]
    refine (List.pairwise_lt_range).imp ?_
    intro a b hab e
    have := (issuedCert_subject c root hX pub pub s.certCounter a b).1 e
    omega
  have hr := (addAll_rep _ CertPool.new [] represents_new hn).certs
  unfold startRound
  dsimp only
  rw [h0, hr, List.nil_append, List.map_map, List.map_map, List.map_map, hl, List.map_map]
  apply List.map_congr_left
  intro i _
  show ((issuedCert X c root pub s.certCounter i).subjectCN, (issuedCert X c root pub s.certCounter i).publicKey) = _
  unfold issuedCert signCertificate
  rw [if_pos (show ((genratePreCert X (s.certCounter + i) c.signer (dummySubject i s.certCounter) false).1).subjectKeyId.length = 0
    from rfl), hX.createSubject, hC.key]
  rfl

theorem poolOf_step (hX : X.Laws) (hC : X.CertLaws) (root : Cert) (e : KeyedEvent K) (r : Nat × Option (Nat × (Nat → K)))
    (st st' : CAState × GoMap Str K) (h : PoolOf pubOf c.certPerPeriod r st)
    (ha : RoundsApart r.2.isSome [e]) (hs : keyedStep X pubOf c root st e = some st') :
    PoolOf pubOf c.certPerPeriod (roundUnderWay c.certPerPeriod [e] r) st' := by
  obtain ⟨n, o⟩ := r
  obtain ⟨hc, hp⟩ := h
  cases e with
  | start sk =>
    have ho : o = none := by
      have := ha.1
      cases o with
      | none => rfl
      | some _ => cases this
    subst ho
    simp only [keyedStep, caStep, Option.map_some, Option.some.injEq] at hs
    subst hs
    simp only at hc hp
    refine ⟨?_, ?_, ?_⟩
    · simp only [startRound, issueLoop_counter, roundUnderWay]
      omega
    · show ((startRound X c root _ st.1).pool.certs.map fun x => (x.subjectCN, x.publicKey)) = _
      rw [startRound_pool c hX hC root _ st.1 hp, hc]
      apply List.map_congr_left
      intro i hi
      rw [pubFor_eq pubOf _ _ sk i (List.mem_range.1 hi)]
    · simp only [hc]
  | finish t pos =>
    simp only [keyedStep, caStep, Option.map_eq_some_iff] at hs
    obtain ⟨s', h1, rfl⟩ := hs
    obtain ⟨_, _, _, _, rfl⟩ := endRound_some X c h1
    exact ⟨hc, rfl⟩
  | quiet e he =>
    simp only [keyedStep, Option.map_eq_some_iff] at hs
    obtain ⟨s', h1, rfl⟩ := hs
    obtain ⟨q1, q2, q3⟩ := quiet_pool c root e he st.1 s' h1
    refine ⟨q1.trans hc, ?_⟩
    cases o with
    | none => exact q3 hp
    | some v => exact ⟨q2.trans hp.1, hp.2⟩

theorem roundUnderWay_cons (n : Nat) (e : KeyedEvent K) (t : List (KeyedEvent K)) (r : Nat × Option (Nat × (Nat → K))) :
    roundUnderWay n (e :: t) r = roundUnderWay n t (roundUnderWay n [e] r) := by
  cases e <;> rfl

theorem roundsApart_cons (n : Nat) (e : KeyedEvent K) (t : List (KeyedEvent K)) (r : Nat × Option (Nat × (Nat → K)))
    (h : RoundsApart r.2.isSome (e :: t)) :
    RoundsApart r.2.isSome [e] ∧ RoundsApart (roundUnderWay n [e] r).2.isSome t := by
  cases e with
  | start sk => exact ⟨⟨h.1, trivial⟩, h.2⟩
  | finish t pos => exact ⟨trivial, h⟩
  | quiet e he => exact ⟨trivial, h⟩

theorem poolOf_run (hX : X.Laws) (hC : X.CertLaws) (root : Cert) (evs : List (KeyedEvent K)) :
    ∀ (r : Nat × Option (Nat × (Nat → K))) (st st' : CAState × GoMap Str K), PoolOf pubOf c.certPerPeriod r st →
      RoundsApart r.2.isSome evs → keyedRun X pubOf c root st evs = some st' →
      PoolOf pubOf c.certPerPeriod (roundUnderWay c.certPerPeriod evs r) st' := by
  induction evs with
  | nil => intro r st st' h _ hs; simp only [keyedRun, Option.some.injEq] at hs; subst hs; exact h
  | cons e t ih =>
    intro r st st' h ha hs
    simp only [keyedRun] at hs
    split at hs
    · cases hs
    rename_i st1 h1
    obtain ⟨a1, a2⟩ := roundsApart_cons c.certPerPeriod e t r ha
    rw [roundUnderWay_cons]
    exact ih _ st1 st' (poolOf_step pubOf c hX hC root e r st st1 h a1 h1) a2 hs

/-- A keyed history is a history of the CA. -/
theorem keyedRun_caRun (root : Cert) (evs : List (KeyedEvent K)) (hpe : PlainKeyed evs) :
    ∀ (st st' : CAState × GoMap Str K), keyedRun X pubOf c root st evs = some st' →
      ∃ es, PlainEvents es ∧ caRun X c root st.1 es = some st'.1 ∧
        ∀ k ∈ roundKeys c.certPerPeriod es, ∃ sk : K, k = pubOf sk := by
  induction evs with
  | nil =>
    intro st st' hs
    simp only [keyedRun, Option.some.injEq] at hs
    subst hs
    exact ⟨[], (by intro e he; cases he), rfl, (by intro k hk; cases hk)⟩
  | cons e t ih =>
    intro st st' hs
    simp only [keyedRun] at hs
    split at hs
    · cases hs
    rename_i st1 h1
    obtain ⟨es, i1, i2, i3⟩ := ih (fun e h hm => hpe e h (List.mem_cons_of_mem _ hm)) st1 st' hs
    have key : ∃ e0, caStep X c root st.1 e0 = some st1.1 ∧ PlainEvents [e0] ∧
        ∀ k ∈ roundKeys c.certPerPeriod [e0], ∃ sk : K, k = pubOf sk := by
      cases e with
      | start sk =>
        simp only [keyedStep, Option.map_eq_some_iff] at h1
        obtain ⟨s', g1, rfl⟩ := h1
        refine ⟨_, g1, (by intro e he; rw [List.mem_singleton.1 he]; trivial), fun k hk => ?_⟩
        simp only [roundKeys, List.flatMap_cons, List.flatMap_nil, List.append_nil, List.mem_map, List.mem_range] at hk
        obtain ⟨i, hi, rfl⟩ := hk
        exact ⟨sk i, pubFor_eq pubOf _ _ sk i hi⟩
      | finish t pos =>
        simp only [keyedStep, Option.map_eq_some_iff] at h1
        obtain ⟨s', g1, rfl⟩ := h1
        exact ⟨_, g1, (by intro e he; rw [List.mem_singleton.1 he]; trivial), (by intro k hk; cases hk)⟩
      | quiet e he =>
        simp only [keyedStep, Option.map_eq_some_iff] at h1
        obtain ⟨s', g1, rfl⟩ := h1
        refine ⟨e, g1, hpe e he (by simp), fun k hk => ?_⟩
        cases e with
        | start pub => cases he
        | _ => cases hk
    obtain ⟨e0, k1, k2, k3⟩ := key
    refine ⟨e0 :: es, ?_, by simp only [caRun, k1]; exact i2, ?_⟩
    · intro e he
      rcases List.mem_cons.1 he with rfl | he
      · exact k2 _ (List.mem_singleton.2 rfl)
      · exact i1 e he
    · intro k hk
      have e2 : roundKeys c.certPerPeriod (e0 :: es) = roundKeys c.certPerPeriod [e0] ++ roundKeys c.certPerPeriod es := by
        simp [roundKeys]
      rw [e2, List.mem_append] at hk
      rcases hk with hk | hk
      · exact k3 k hk
      · exact i3 k hk

end

/-! ### Files -/

theorem digits_split : ∀ (a b r r' : Str), (∀ c ∈ a, c ≠ 95) → (∀ c ∈ b, c ≠ 95) → a ++ 95 :: r = b ++ 95 :: r' → a = b ∧ r = r'
  | [], [], _, _, _, _, h => ⟨rfl, by simpa using h⟩
  | [], y :: b, _, _, _, hb, h => by
    simp only [List.nil_append, List.cons_append, List.cons.injEq] at h
    exact absurd h.1.symm (hb y (by simp))
  | x :: a, [], _, _, ha, _, h => by
    simp only [List.nil_append, List.cons_append, List.cons.injEq] at h
    exact absurd h.1 (ha x (by simp))
  | x :: a, y :: b, r, r', ha, hb, h => by
    simp only [List.cons_append, List.cons.injEq] at h
    obtain ⟨h1, h2⟩ := digits_split a b r r' (fun c hc => ha c (by simp [hc])) (fun c hc => hb c (by simp [hc])) h.2
    exact ⟨by rw [h.1, h1], h2⟩

theorem itoa_no_underscore (n : Nat) : ∀ c ∈ itoa n, c ≠ 95 := by
  intro c hc e
  subst e
  exact absurd (Json.itoa_isDigit n 95 hc) (by decide)

theorem savedAs_eq (j : Nat) (e : Str) :
    savedAs j e = go!"Testing Dummy " ++ (itoa j ++ 95 :: (go!"RID_" ++ (itoa j ++ e))) := by
  simp [savedAs]

theorem savedAs_inj {i j : Nat} {e e' : Str} (h : savedAs i e = savedAs j e') : i = j ∧ e = e' := by
  rw [savedAs_eq, savedAs_eq, List.append_cancel_left_eq] at h
  obtain ⟨h1, h2⟩ := digits_split _ _ _ _ (itoa_no_underscore i) (itoa_no_underscore j) h
  have := itoa_inj h1
  subst this
  rw [List.append_cancel_left_eq, List.append_cancel_left_eq] at h2
  exact ⟨rfl, h2⟩

section
variable {X : XLib} {K : Type} (P : Pkcs8 K) (kp : GoMap Str K)

/-- A certificate whose files have the expected names and whose key is there. -/
structure Storable (X : XLib) (kp : GoMap Str K) (f : Cert) : Prop where
  subject : f.subjectCN = go!"Testing Dummy " ++ itoa (f.rid X)
  key : ∃ k, kp.get f.subjectCN = some k

theorem storedName_eq {f : Cert} (h : f.subjectCN = go!"Testing Dummy " ++ itoa (f.rid X)) (e : Str) :
    storedName X f e = savedAs (f.rid X) e := by
  rw [storedName, h, savedAs]

theorem saveLoop_spec (l : List Cert) : ∀ (fs : Files), (∀ f ∈ l, Storable X kp f) → (l.map (Cert.rid X)).Nodup →
    ∃ fs', saveLoop X P kp fs l = some fs' ∧
      (∀ f ∈ l, ∀ k, kp.get f.subjectCN = some k →
        fs'.get (savedAs (f.rid X) (go!".crt")) = some (encode (go!"CERTIFICATE") f.raw) ∧
        fs'.get (savedAs (f.rid X) (go!".key")) = some (encode (go!"PRIVATE KEY") (P.marshal k))) ∧
      ∀ path, (∀ f ∈ l, path ≠ savedAs (f.rid X) (go!".crt") ∧ path ≠ savedAs (f.rid X) (go!".key")) → fs'.get path = fs.get path := by
  induction l with
  | nil => intro fs _ _; exact ⟨fs, rfl, (by intro f hf; cases hf), fun _ _ => rfl⟩
  | cons x t ih =>
    intro fs hs hn
    have hx := hs x (by simp)
    obtain ⟨k, hk⟩ := hx.key
    rw [List.map_cons, List.nodup_cons] at hn
    obtain ⟨fs', h1, h2, h3⟩ := ih (saveKey P (saveCertificate fs x.raw (storedName X x (go!".crt"))) k (storedName X x (go!".key")))
      (fun f hf => hs f (by simp [hf])) hn.2
    have hd : ∀ e f, f ∈ t → ∀ e', savedAs (x.rid X) e ≠ savedAs (f.rid X) e' := fun e f hf e' he =>
      hn.1 (by rw [(savedAs_inj he).1]; exact List.mem_map_of_mem hf)
    have hne : savedAs (x.rid X) (go!".crt") ≠ savedAs (x.rid X) (go!".key") := fun h => absurd (savedAs_inj h).2 (by decide)
    refine ⟨fs', by rw [saveLoop, hk]; exact h1, ?_, ?_⟩
    · intro f hf k' hk'
      rcases List.mem_cons.1 hf with rfl | hf
      · rw [hk] at hk'
        cases hk'
        rw [h3 _ (fun g hg => ⟨hd _ g hg _, hd _ g hg _⟩), h3 _ (fun g hg => ⟨hd _ g hg _, hd _ g hg _⟩), storedName_eq hx.subject,
          storedName_eq hx.subject]
        unfold saveKey saveCertificate
        rw [GoMap.get_set_self, GoMap.get_set_ne _ _ hne, GoMap.get_set_self]
        exact ⟨rfl, rfl⟩
      · exact h2 f hf k' hk'
    · intro path hp
      rw [h3 path (fun f hf => hp f (by simp [hf])), storedName_eq hx.subject, storedName_eq hx.subject]
      unfold saveKey saveCertificate
      rw [GoMap.get_set_ne _ _ (hp x (by simp)).2, GoMap.get_set_ne _ _ (hp x (by simp)).1]

end

/-! ### C160 -/

section
variable {L : Lib} {X : XLib} {K : Type} (pubOf : K → Str) (c : CAConf L)

theorem keyed_init (hX : X.Laws) (hC : X.CertLaws) (sha : Str → Str) (signer rootPub : Str) (evs : List (KeyedEvent K))
    (hpe : PlainKeyed evs) (hsha : ∀ k, L.sha256 (pubOf k) ≠ []) (st : CAState × GoMap Str K)
    (h : keyedRun X pubOf c (initCA X sha signer rootPub).1 ((initCA X sha signer rootPub).2, .empty) evs = some st)
    (hlt : st.1.issued.length < 2 ^ 63) :
    ∀ x ∈ st.1.pool.getCerts, ∀ n, x.subjectCN = go!"Testing Dummy " ++ itoa n →
      let f := signCertificate X L.sha256 (x.forSigning X) (initCA X sha signer rootPub).1 x.publicKey
      f.subjectCN = x.subjectCN ∧ f.publicKey = x.publicKey ∧ f.rid X = n := by
  intro x hx n hn f
  obtain ⟨es, e1, e2, e3⟩ := keyedRun_caRun pubOf c _ evs hpe _ st h
  have hf : f ∈ signAll X L.sha256 (initCA X sha signer rootPub).1 st.1 := List.mem_map_of_mem hx
  have hs : f.subjectCN = x.subjectCN := by
    show (signCertificate X L.sha256 (x.forSigning X) (initCA X sha signer rootPub).1 x.publicKey).subjectCN = _
    unfold signCertificate
    split <;> rw [hX.createSubject] <;> rfl
  have hk : f.publicKey = x.publicKey := by
    show (signCertificate X L.sha256 (x.forSigning X) (initCA X sha signer rootPub).1 x.publicKey).publicKey = _
    unfold signCertificate
    split <;> rw [hC.key]
  refine ⟨hs, hk, ?_⟩
  obtain ⟨⟨y, hy, hh⟩, _⟩ := C153_final c hX hC sha signer rootPub es e1
    (fun k hk => by obtain ⟨sk, rfl⟩ := e3 k hk; exact hsha sk) st.1 e2 hlt f hf
  obtain ⟨j, hj⟩ := List.mem_iff_getElem?.1 hy
  have hl := (C153_issued c hX hC sha signer rootPub es e1 st.1 e2 hlt).2 j y hj
  have : itoa n = itoa (j + 1) := by
    rw [← List.append_cancel_left_eq (as := go!"Testing Dummy "), ← hn, ← hs, hh.subject, hl.subject]
  rw [hh.rid, Cert.rid, hl.ext, itoa_inj this]

/-- C160, for rounds that do not overlap: `SaveToStorage` does not panic. During a round it writes, for each certificate of this
round, the certificate to "Testing Dummy j_RID_j.crt" and to "Testing Dummy j_RID_j.key" the private key that was generated for it;
the certificate read back is the one that was signed and carries the public key of the key read back. Nothing else is
written, and between rounds nothing at all. Missing: rounds that overlap (next theorem). -/
theorem C160_saved_partial (hX : X.Laws) (hC : X.CertLaws) (P : Pkcs8 K) (hP : P.Laws) (sha : Str → Str) (signer rootPub : Str)
    (evs : List (KeyedEvent K)) (ha : RoundsApart false evs) (hpe : PlainKeyed evs) (hsha : ∀ k, L.sha256 (pubOf k) ≠ [])
    (st : CAState × GoMap Str K)
    (h : keyedRun X pubOf c (initCA X sha signer rootPub).1 ((initCA X sha signer rootPub).2, .empty) evs = some st)
    (hlt : st.1.issued.length < 2 ^ 63) (fs : Files) :
    ∃ fs', caSave X P L.sha256 (initCA X sha signer rootPub).1 fs st = some fs' ∧
      match (roundUnderWay c.certPerPeriod evs (0, none)).2 with
      | none => fs' = fs
      | some (first, sk) =>
        (∀ i, i < c.certPerPeriod →
          readKey P fs' (savedAs (first + i) (go!".key")) = some (sk i) ∧
          ∃ f ∈ signAll X L.sha256 (initCA X sha signer rootPub).1 st.1,
            readCertificate fs' (savedAs (first + i) (go!".crt")) = some f.raw ∧ f.publicKey = pubOf (sk i) ∧
            f.subjectCN = go!"Testing Dummy " ++ itoa (first + i) ∧ f.rid X = first + i) ∧
        ∀ path, (∀ i, i < c.certPerPeriod → path ≠ savedAs (first + i) (go!".crt") ∧ path ≠ savedAs (first + i) (go!".key")) →
          fs'.get path = fs.get path := by
  have hi := poolOf_run pubOf c hX hC _ evs (0, none) _ st ⟨rfl, rfl⟩ ha h
  have hsig := keyed_init pubOf c hX hC sha signer rootPub evs hpe hsha st h hlt
  generalize (roundUnderWay c.certPerPeriod evs (0, none)) = r at hi
  obtain ⟨m, o⟩ := r
  obtain ⟨hc, hp⟩ := hi
  cases o with
  | none =>
    refine ⟨fs, ?_, rfl⟩
    rw [caSave, signAll, CertPool.getCerts, show st.1.pool.certs = [] from by rw [hp]; rfl]
    rfl
  | some v =>
    obtain ⟨first, sk⟩ := v
    obtain ⟨hp1, hp2⟩ := hp
    -- the certificates by index
    have hget : ∀ i x, st.1.pool.certs[i]? = some x → i < c.certPerPeriod ∧ x.subjectCN = go!"Testing Dummy " ++ itoa (first + i) ∧
        x.publicKey = pubOf (sk i) := by
      intro i x hx
      have e := congrArg (fun l => l[i]?) hp1
      simp only [List.getElem?_map, hx, Option.map_some] at e
      by_cases hi : i < c.certPerPeriod
      · rw [List.getElem?_range hi] at e
        simp only [Option.map_some, Option.some.injEq, Prod.mk.injEq] at e
        refine ⟨hi, ?_, e.2⟩
        rw [e.1, dummySubject, Nat.add_comm]
      · rw [List.getElem?_eq_none (by simpa using hi)] at e
        cases e
    have hlen : st.1.pool.certs.length = c.certPerPeriod := by
      have := congrArg List.length hp1
      simpa using this
    have hkp : ∀ i, i < c.certPerPeriod → st.2.get (go!"Testing Dummy " ++ itoa (first + i)) = some (sk i) := by
      intro i hi
      rw [hp2, nKeyPairs]
      exact (byIndex_get sk c.certPerPeriod first _ _).2 ⟨i, hi, by rw [dummySubject, Nat.add_comm], rfl⟩
    have hrid : (signAll X L.sha256 (initCA X sha signer rootPub).1 st.1).map (Cert.rid X) =
        (List.range c.certPerPeriod).map (first + ·) := by
      apply List.ext_getElem?
      intro i
      rw [signAll, CertPool.getCerts, List.map_map, List.getElem?_map, List.getElem?_map]
      cases hx : st.1.pool.certs[i]? with
      | none =>
        have := List.getElem?_eq_none_iff.1 hx
        rw [List.getElem?_eq_none (by simp; omega)]
        rfl
      | some x =>
        obtain ⟨h1, h2, _⟩ := hget i x hx
        rw [List.getElem?_range h1]
        simp only [Option.map_some, Option.some.injEq]
        exact (hsig x (List.mem_of_getElem? hx) _ h2).2.2
    have hst : ∀ f ∈ signAll X L.sha256 (initCA X sha signer rootPub).1 st.1, Storable X st.2 f := by
      intro f hf
      obtain ⟨x, hx, rfl⟩ := List.mem_map.1 hf
      obtain ⟨i, hxi⟩ := List.mem_iff_getElem?.1 hx
      obtain ⟨h1, h2, _⟩ := hget i x hxi
      obtain ⟨g1, _, g3⟩ := hsig x hx _ h2
      exact ⟨by rw [g3, g1, h2], sk i, by rw [g1, h2, hkp i h1]⟩
    obtain ⟨fs', s1, s2, s3⟩ := saveLoop_spec P st.2 (signAll X L.sha256 (initCA X sha signer rootPub).1 st.1) fs hst (by
      rw [hrid, List.nodup_iff_pairwise_ne, List.pairwise_map]
      exact (List.pairwise_lt_range).imp (fun hab e => by omega))
    refine ⟨fs', s1, fun i hi => ?_, fun path hpath => s3 path (fun f hf => ?_)⟩
    · have hx : st.1.pool.certs[i]? = some (st.1.pool.certs[i]'(by omega)) := List.getElem?_eq_getElem _
      generalize st.1.pool.certs[i]'(by omega) = x at hx
      obtain ⟨_, h2, h3⟩ := hget i x hx
      have hm := List.mem_of_getElem? hx
      obtain ⟨g1, g2, g3⟩ := hsig x hm _ h2
      have hf : signCertificate X L.sha256 (x.forSigning X) (initCA X sha signer rootPub).1 x.publicKey ∈
        signAll X L.sha256 (initCA X sha signer rootPub).1 st.1 := List.mem_map_of_mem hm
      obtain ⟨q1, q2⟩ := s2 _ hf (sk i) (by rw [g1, h2, hkp i hi])
      rw [g3] at q1 q2
      refine ⟨?_, _, hf, ?_, g2.trans h3, g1.trans h2, g3⟩
      · have := decode_encode (go!"PRIVATE KEY") (P.marshal (sk i)) [] plain_key
        rw [List.append_nil] at this
        unfold readKey
        rw [q2]
        simp only [this, hP.rt]
      · have := decode_encode (go!"CERTIFICATE")
          (signCertificate X L.sha256 (x.forSigning X) (initCA X sha signer rootPub).1 x.publicKey).raw [] plain_certificate
        rw [List.append_nil] at this
        unfold readCertificate
        rw [q1]
        simp only [this]
    · have : f.rid X ∈ (List.range c.certPerPeriod).map (first + ·) := by rw [← hrid]; exact List.mem_map_of_mem hf
      obtain ⟨i, hi, e⟩ := List.mem_map.1 this
      rw [← e]
      exact hpath i (List.mem_range.1 hi)

theorem addAll_prefix (l : List Cert) : ∀ p : CertPool, ∃ t, (addAll p l).certs = p.certs ++ t := by
  induction l with
  | nil => intro p; exact ⟨[], by simp [addAll]⟩
  | cons x l ih =>
    intro p
    unfold addAll
    split
    · rename_i p' hp
      obtain ⟨t, ht⟩ := ih p'
      have : ∃ t', p'.certs = p.certs ++ t' := by
        unfold CertPool.addCert at hp
        split at hp
        · cases hp
        · cases hp; exact ⟨[], by simp⟩
        · cases hp; exact ⟨[x], rfl⟩
      obtain ⟨t', ht'⟩ := this
      exact ⟨t' ++ t, by rw [ht, ht', List.append_assoc]⟩
    · exact ⟨[], by simp⟩

theorem underWay_first (n : Nat) (evs : List (KeyedEvent K)) : ∀ r : Nat × Option (Nat × (Nat → K)),
    (∀ first sk, r.2 = some (first, sk) → first + n = r.1 + 1) →
    ∀ first sk, (roundUnderWay n evs r).2 = some (first, sk) → first + n = (roundUnderWay n evs r).1 + 1 := by
  induction evs with
  | nil => intro r h; exact h
  | cons e t ih =>
    intro r h
    rw [roundUnderWay_cons]
    apply ih
    cases e with
    | start sk =>
      intro first sk' he
      simp only [roundUnderWay, Option.some.injEq, Prod.mk.injEq] at he ⊢
      omega
    | finish t pos => intro first sk' he; cases he
    | quiet e he => exact h

theorem keyedRun_append (root : Cert) (a b : List (KeyedEvent K)) : ∀ st : CAState × GoMap Str K,
    keyedRun X pubOf c root st (a ++ b) = (keyedRun X pubOf c root st a).bind fun st' => keyedRun X pubOf c root st' b := by
  induction a with
  | nil => intro st; rfl
  | cons e t ih =>
    intro st
    simp only [List.cons_append, keyedRun]
    cases keyedStep X pubOf c root st e with
    | none => rfl
    | some st' => exact ih st'

/-- C160 is false for a round that begins before the one before it has ended: the keys of the older certificates, which are
still in the pool, are forgotten, and `SaveToStorage` panics. -/
theorem C160_violated_overlap (hX : X.Laws) (hC : X.CertLaws) (P : Pkcs8 K) (root : Cert) (hn : 0 < c.certPerPeriod)
    (evs : List (KeyedEvent K)) (ha : RoundsApart false evs) (s0 : CAState) (h0 : s0.certCounter = 1)
    (hp0 : s0.pool = CertPool.new) (sk' : Nat → K) (st : CAState × GoMap Str K)
    (ho : (roundUnderWay c.certPerPeriod evs (0, none)).2.isSome = true)
    (h : keyedRun X pubOf c root (s0, .empty) (evs ++ [.start sk']) = some st) (fs : Files) :
    caSave X P L.sha256 root fs st = none := by
  rw [keyedRun_append] at h
  cases h1 : keyedRun X pubOf c root (s0, .empty) evs with
  | none => rw [h1] at h; cases h
  | some st1 =>
    rw [h1] at h
    have hi := poolOf_run pubOf c hX hC root evs (0, none) _ st1 ⟨h0, hp0⟩ ha h1
    have hu := underWay_first (K := K) c.certPerPeriod evs (0, none) (by intro _ _ e; cases e)
    generalize roundUnderWay c.certPerPeriod evs (0, none) = r at hi hu ho
    obtain ⟨m, o⟩ := r
    cases o with
    | none => cases ho
    | some v =>
      obtain ⟨first, sk⟩ := v
      obtain ⟨hc, hp, _⟩ := hi
      have hu' : first + c.certPerPeriod = m + 1 := hu first sk rfl
      simp only [Option.bind_some, keyedRun, keyedStep, caStep, Option.map_some, Option.some.injEq] at h
      subst h
      obtain ⟨n, hn'⟩ : ∃ n, c.certPerPeriod = n + 1 := ⟨c.certPerPeriod - 1, by omega⟩
      cases hx : st1.1.pool.certs with
      | nil => rw [hx, hn', List.range_succ_eq_map] at hp; cases hp
      | cons x t =>
        have hsub : x.subjectCN = dummySubject 0 first := by
          rw [hx, hn', List.range_succ_eq_map] at hp
          simp only [List.map_cons, List.cons.injEq, Prod.mk.injEq] at hp
          exact hp.1.1
        obtain ⟨l, hl⟩ := addAll_prefix (((issueLoop X L.sha256 root c.signer
          (pubFor pubOf c.certPerPeriod st1.1.certCounter sk') st1.1.certCounter c.certPerPeriod 0 st1.1.certCounter).1).map
            (Cert.toPrecert X)) st1.1.pool
        have hpool : (startRound X c root (pubFor pubOf c.certPerPeriod st1.1.certCounter sk') st1.1).pool.getCerts = x :: (t ++ l) := by
          show (addAll st1.1.pool _).certs = _
          rw [hl, hx, List.cons_append]
        have hf : (signCertificate X L.sha256 (x.forSigning X) root x.publicKey).subjectCN = dummySubject 0 first := by
          rw [← hsub]
          unfold signCertificate
          split <;> rw [hX.createSubject] <;> rfl
        rw [caSave, signAll, hpool, List.map_cons, saveLoop, hf]
        cases hk : (nKeyPairs pubOf (nSubjects c.certPerPeriod st1.1.certCounter) sk').2.get (dummySubject 0 first) with
        | none => rfl
        | some k =>
          exfalso
          rw [nKeyPairs] at hk
          obtain ⟨i, _, e, _⟩ := (byIndex_get sk' c.certPerPeriod st1.1.certCounter _ _).1 hk
          have := dummySubject_inj e
          simp only at hc
          omega

end

/-! ### Concrete cases -/

namespace Ref

/-- The public key of a key. -/
def pubKeyOf (k : Str) : Str := go!"pub-" ++ k

/-- A round, revocations at its end, and the next round with a revocation. -/
def keyedRounds : List (KeyedEvent Str) :=
  [.start (leafKey 0), .quiet (.revoke 7) rfl, .finish (at58) [], .start (leafKey 1), .quiet (.revoke 8) rfl]

theorem keyedRounds_plain : PlainKeyed keyedRounds := by
  intro e h hm
  simp only [keyedRounds, List.mem_cons, List.not_mem_nil, or_false, reduceCtorEq, false_or] at hm
  rcases hm with hm | hm <;> cases hm <;> (intro e he; rw [List.mem_singleton.1 he]; trivial)

/-- C160: the second round saves two certificates with their keys. -/
example : ∃ st fs', keyedRun xlib pubKeyOf caConf caRoot (caInit, .empty) keyedRounds = some st ∧
    caSave xlib pkcs8 lib.sha256 caRoot .empty st = some fs' ∧
    readKey pkcs8 fs' (go!"Testing Dummy 4_RID_4.key") = some (leafKey 1 1) ∧
    (roundUnderWay caConf.certPerPeriod keyedRounds (0, none)).2.map (·.1) = some 3 := by
  cases h : keyedRun xlib pubKeyOf caConf caRoot (caInit, .empty) keyedRounds with
  | none => exact absurd (congrArg Option.isSome h) (by decide +kernel)
  | some st =>
    have hi : ((keyedRun xlib pubKeyOf caConf caRoot (caInit, .empty) keyedRounds).map fun s => s.1.issued.length) = some 4 := by
      decide +kernel
    rw [h] at hi
    obtain ⟨fs', h1, h2, _⟩ := C160_saved_partial pubKeyOf caConf xlaws certLaws pkcs8 ⟨fun _ => rfl⟩ lib.sha256 (go!"C1")
      (go!"rootkey") keyedRounds ⟨rfl, rfl, trivial⟩ keyedRounds_plain (fun k => by simp [lib, pubKeyOf]) st h
      (by have : st.1.issued.length = 4 := Option.some.inj hi; omega) .empty
    have e : savedAs (3 + 1) (go!".key") = go!"Testing Dummy 4_RID_4.key" := by decide +kernel
    exact ⟨st, fs', rfl, h1, e ▸ (h2 1 (by decide)).1, rfl⟩

/-- C160: the second round begins before the first has ended. -/
example : ∀ st, keyedRun xlib pubKeyOf caConf caRoot (caInit, .empty) [.start (leafKey 0), .start (leafKey 1)] = some st →
    caSave xlib pkcs8 lib.sha256 caRoot .empty st = none := fun st h =>
  C160_violated_overlap pubKeyOf caConf xlaws certLaws pkcs8 caRoot (by decide) [.start (leafKey 0)] ⟨rfl, trivial⟩ caInit rfl rfl
    (leafKey 1) st rfl h .empty

end Ref

end CTng
