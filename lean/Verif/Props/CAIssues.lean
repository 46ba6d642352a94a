import Verif.Props.Pipeline
/- C153: what the certificates of a CA say. -/
set_option autoImplicit false

namespace CTng

/-! ### Specification -/

/-- What the theorems below need of crypto/x509 beyond `XLib.Laws`: a certificate has the key it was made for, and is a CA
certificate if its template is. -/
structure XLib.CertLaws (X : XLib) : Prop where
  key : ∀ t p k, (X.createCert t p k).publicKey = k
  isCA : ∀ t p k, (X.createCert t p k).isCA = t.isCA

/-- The keys generated in the rounds of a history, in order: `n` per round. -/
def roundKeys (n : Nat) (evs : List CAEvent) : List Str :=
  evs.flatMap fun e => match e with
    | .start pub => (List.range n).map pub
    | _ => []

/-- The `j`-th certificate (from 0) of the CA called `ca`. -/
structure LeafOf {L : Lib} (X : XLib) (ca : Str) (j : Nat) (x : Cert) : Prop where
  subject : x.subjectCN = go!"Testing Dummy " ++ itoa (j + 1)
  issuer : x.issuerCN = ca
  leaf : x.isCA = false
  keyId : L.sha256 x.publicKey ≠ [] → x.subjectKeyId = L.sha256 x.publicKey
  ext : x.parseExt X = ⟨j + 1, []⟩
  named : x.rawSubject ≠ []

/-- Two certificates with the same subject, key, key id, id and kind. -/
structure SameHolder (X : XLib) (y x : Cert) : Prop where
  subject : x.subjectCN = y.subjectCN
  rawSubject : x.rawSubject = y.rawSubject
  key : x.publicKey = y.publicKey
  keyId : x.subjectKeyId = y.subjectKeyId
  isCA : x.isCA = y.isCA
  rid : x.rid X = y.rid X

/-! ### The invariant -/

section
variable {L : Lib} {X : XLib} (c : CAConf L)

theorem signed_leaf (hX : X.Laws) (hC : X.CertLaws) (root : Cert) (ca key : Str) (j : Nat) (hj : j + 1 < 2 ^ 63)
    (hr : root.subjectCN = ca) (s : Str) (hs : s = go!"Testing Dummy " ++ itoa (j + 1)) (ic : Str) :
    LeafOf (L := L) X ca j (signCertificate X L.sha256 (genratePreCert X (j + 1) ic s false).1 root key) ∧
    (signCertificate X L.sha256 (genratePreCert X (j + 1) ic s false).1 root key).publicKey = key := by
  subst hs
  have hp : CTngExt.Plain ⟨j + 1, []⟩ := ⟨hj, by intro l h; simp at h⟩
  unfold signCertificate
  rw [if_pos (show ((genratePreCert X (j + 1) ic (go!"Testing Dummy " ++ itoa (j + 1)) false).1).subjectKeyId.length = 0 from rfl)]
  refine ⟨⟨?_, ?_, ?_, ?_, ?_, ?_⟩, hC.key _ _ _⟩
  · rw [hX.createSubject]; rfl
  · rw [hX.createIssuer, hr]
  · rw [hC.isCA]; rfl
  · rw [hC.key]
    intro hne
    exact hX.createSKI _ _ _ hne
  · rw [parseExt_eq, hX.createExt]
    simp [genratePreCert, hX.ext _ hp]
  · exact hX.createHasSubject _ _ _ rfl

theorem sameHolder_refl (x : Cert) : SameHolder X x x := ⟨rfl, rfl, rfl, rfl, rfl, rfl⟩

/-- What holds of a CA that has generated the keys `keys`. -/
structure IssuesInv (L : Lib) (X : XLib) (ca : Str) (keys : List Str) (s : CAState) : Prop where
  counter : s.certCounter = s.issued.length + 1
  keys : s.issued.map Cert.publicKey = keys
  leaves : ∀ (j : Nat) x, s.issued[j]? = some x → LeafOf (L := L) X ca j x
  pool : ∀ x ∈ s.pool.certs, ∃ y ∈ s.issued, SameHolder X y x
  exts : PoolInv X s

theorem sameHolder_precert (hX : X.Laws) {y : Cert} (hy : y.rid X < 2 ^ 63) : SameHolder X y (y.toPrecert X) := by
  refine ⟨rfl, rfl, rfl, rfl, rfl, ?_⟩
  have hp : CTngExt.Plain ⟨y.rid X, []⟩ := ⟨hy, by intro l hl; cases hl⟩
  have : (y.toPrecert X).parseExt X = X.decExt (X.encExt ⟨y.rid X, []⟩) := by
    simp [Cert.parseExt, Cert.toPrecert, Cert.rid]
  unfold Cert.rid
  rw [this, hX.ext _ hp]
  rfl

theorem sameHolder_update (hX : X.Laws) {y x : Cert} (h : SameHolder X y x) (hg : GoodExt X x) {n : LoggerInfo} (hn : n.Plain) :
    SameHolder X y (x.updateExt X n) := by
  have e : (x.updateExt X n).rid X = x.rid X := by
    unfold Cert.rid
    rw [updateExt_parse hX hg.1 hg.2.1 hn]
  have hs : ∃ es, x.updateExt X n = { x with extensions := es } := by
    unfold Cert.updateExt
    dsimp only
    split
    · exact ⟨x.extensions, rfl⟩
    · exact ⟨_, rfl⟩
  obtain ⟨es, hes⟩ := hs
  refine ⟨?_, ?_, ?_, ?_, ?_, e.trans h.rid⟩ <;> rw [hes]
  · exact h.subject
  · exact h.rawSubject
  · exact h.key
  · exact h.keyId
  · exact h.isCA

theorem issuesInv_step (hX : X.Laws) (hC : X.CertLaws) {root : Cert} {ca : Str} (hr : root.subjectCN = ca) {keys : List Str}
    {s s' : CAState} (e : CAEvent) (hpe : PlainEvents [e]) (h : IssuesInv L X ca keys s) (hs : caStep X c root s e = some s')
    (hlt : s'.certCounter ≤ 2 ^ 63) : IssuesInv L X ca (keys ++ roundKeys c.certPerPeriod [e]) s' := by
  have hpool := poolInv_step c root hX e hpe (fun _ => h.exts) hs hlt
  cases e with
  | start pub =>
    simp only [caStep, Option.some.injEq] at hs
    have hs0 := hs
    subst hs
    simp only [startRound, issueLoop_counter] at hlt
    have hn := h.counter
    have hget : ∀ j, j < c.certPerPeriod →
        (issueLoop X L.sha256 root c.signer pub s.certCounter c.certPerPeriod 0 s.certCounter).1[j]? =
          some (signCertificate X L.sha256 (genratePreCert X ((s.issued.length + j) + 1) c.signer (dummySubject j s.certCounter) false).1
            root (pub j)) := by
      intro j hj
      rw [issueLoop_get _ _ _ _ _ _ _ _ _ hj, Nat.zero_add, show s.certCounter + j = s.issued.length + j + 1 by omega]
    have hsub : ∀ j, dummySubject j s.certCounter = go!"Testing Dummy " ++ itoa (s.issued.length + j + 1) := by
      intro j
      unfold dummySubject
      rw [show j + s.certCounter = s.issued.length + j + 1 by omega]
    have hlen := issueLoop_length X L.sha256 root c.signer pub s.certCounter c.certPerPeriod 0 s.certCounter
    have hleaf : ∀ (j : Nat) x, (s.issued ++ (issueLoop X L.sha256 root c.signer pub s.certCounter c.certPerPeriod 0 s.certCounter).1)[j]? =
        some x → LeafOf (L := L) X ca j x := by
      intro j x hx
      rw [List.getElem?_append] at hx
      split at hx
      · exact h.leaves j x hx
      · rename_i hge
        have hj : j - s.issued.length < c.certPerPeriod := by
          have := (List.getElem?_eq_some_iff.1 hx).1
          omega
        rw [hget _ hj, Option.some.injEq, show s.issued.length + (j - s.issued.length) = j by omega] at hx
        subst hx
        refine (signed_leaf hX hC root ca _ j (by omega) hr _ ?_ _).1
        rw [hsub, show s.issued.length + (j - s.issued.length) = j by omega]
    refine ⟨?_, ?_, hleaf, ?_, hpool⟩
    · simp only [startRound, issueLoop_counter, List.length_append, hlen]
      omega
    · simp only [startRound, List.map_append, h.keys, roundKeys, List.flatMap_cons, List.flatMap_nil, List.append_nil,
        List.append_cancel_left_eq]
      apply List.ext_getElem?
      intro j
      rw [List.getElem?_map, List.getElem?_map]
      by_cases hj : j < c.certPerPeriod
      · rw [hget j hj, List.getElem?_eq_getElem (by simpa using hj)]
        simp only [Option.map_some, List.getElem_range, Option.some.injEq]
        exact (signed_leaf hX hC root ca (pub j) (s.issued.length + j) (by omega) hr _ (hsub j) c.signer).2
      · rw [List.getElem?_eq_none (by omega), List.getElem?_eq_none (by simpa using hj)]
        rfl
    · intro x hx
      rcases addAll_mem _ _ x hx with hx | hx
      · obtain ⟨y, hy, hk⟩ := h.pool x hx
        exact ⟨y, List.mem_append_left _ hy, hk⟩
      · obtain ⟨y, hy, rfl⟩ := List.mem_map.1 hx
        refine ⟨y, List.mem_append_right _ hy, sameHolder_precert hX ?_⟩
        obtain ⟨j, hj⟩ := List.mem_iff_getElem?.1 hy
        have hjl := (List.getElem?_eq_some_iff.1 hj).1
        have hl := hleaf (s.issued.length + j) y (by rw [List.getElem?_append_right (by omega)]; simpa using hj)
        unfold Cert.rid
        rw [hl.ext]
        show s.issued.length + j + 1 < 2 ^ 63
        omega
  | finish t pos =>
    obtain ⟨_, _, _, _, rfl⟩ := endRound_some X c hs
    refine ⟨h.counter, ?_, h.leaves, (by intro x hx; cases hx), hpool⟩
    rw [show roundKeys c.certPerPeriod [.finish t pos] = [] from rfl, List.append_nil]
    exact h.keys
  | request t =>
    simp only [caStep, Option.some.injEq] at hs
    obtain ⟨n, hn⟩ := request_frame c t s
    rw [hn] at hs; subst hs
    refine ⟨h.counter, ?_, h.leaves, h.pool, hpool⟩
    rw [show roundKeys c.certPerPeriod [.request t] = [] from rfl, List.append_nil]
    exact h.keys
  | sth g =>
    simp only [caStep, Option.some.injEq] at hs
    obtain ⟨n, hn⟩ := sth_frame c g s
    rw [hn] at hs; subst hs
    refine ⟨h.counter, ?_, h.leaves, h.pool, hpool⟩
    rw [show roundKeys c.certPerPeriod [.sth g] = [] from rfl, List.append_nil]
    exact h.keys
  | poi p =>
    have hp : p.Plain := hpe (.poi p) (by simp)
    have hr' : roundKeys c.certPerPeriod [.poi p] = [] := rfl
    rw [hr', List.append_nil]
    simp only [caStep, Option.some.injEq, caReceivePOI] at hs
    split at hs
    · rename_i target ht
      split at hs
      · rename_i pool hpl
        subst hs
        refine ⟨h.counter, h.keys, h.leaves, ?_, hpool⟩
        intro x hx
        rcases updateBySKI_mem hpl x hx with hx | rfl
        · exact h.pool x hx
        · obtain ⟨y, hy, hk⟩ := h.pool target (getBySKI_mem ht)
          refine ⟨y, hy, sameHolder_update hX hk (h.exts.certs target (getBySKI_mem ht)) ⟨?_, hp⟩⟩
          unfold readObj
          cases hkk : s.sthStorage.get p.loggerID with
          | none => exact zero_plain
          | some g => exact h.exts.sths _ g hkk
      · subst hs; exact h
    · subst hs; exact h
  | revoke i =>
    simp only [caStep, Option.some.injEq] at hs
    subst hs
    refine ⟨h.counter, ?_, h.leaves, h.pool, hpool⟩
    rw [show roundKeys c.certPerPeriod [.revoke i] = [] from rfl, List.append_nil]
    exact h.keys

theorem counter_mono {root : Cert} (evs : List CAEvent) (s s' : CAState) (h : caRun X c root s evs = some s') :
    s.certCounter ≤ s'.certCounter := by
  induction evs generalizing s with
  | nil => simp only [caRun, Option.some.injEq] at h; subst h; omega
  | cons e t ih =>
    simp only [caRun] at h
    split at h
    · cases h
    rename_i s1 h1
    refine Nat.le_trans ?_ (ih s1 h)
    cases e with
    | start pub =>
      simp only [caStep, Option.some.injEq] at h1
      subst h1
      simp only [startRound, issueLoop_counter]
      omega
    | finish t pos => obtain ⟨_, _, _, _, rfl⟩ := endRound_some X c h1; exact Nat.le_refl _
    | request t =>
      simp only [caStep, Option.some.injEq] at h1
      obtain ⟨n, hn⟩ := request_frame c t s
      rw [hn] at h1; subst h1; exact Nat.le_refl _
    | sth g =>
      simp only [caStep, Option.some.injEq] at h1
      obtain ⟨n, hn⟩ := sth_frame c g s
      rw [hn] at h1; subst h1; exact Nat.le_refl _
    | poi p =>
      simp only [caStep, Option.some.injEq] at h1
      obtain ⟨n, hn⟩ := poi_frame X p s
      rw [hn] at h1; subst h1; exact Nat.le_refl _
    | revoke i =>
      simp only [caStep, Option.some.injEq] at h1
      subst h1; exact Nat.le_refl _

theorem issuesInv_run (hX : X.Laws) (hC : X.CertLaws) {root : Cert} {ca : Str} (hr : root.subjectCN = ca) (evs : List CAEvent)
    (hpe : PlainEvents evs) {keys : List Str} {s s' : CAState} (h : IssuesInv L X ca keys s)
    (hs : caRun X c root s evs = some s') (hlt : s'.certCounter ≤ 2 ^ 63) :
    IssuesInv L X ca (keys ++ roundKeys c.certPerPeriod evs) s' := by
  induction evs generalizing s keys with
  | nil =>
    simp only [caRun, Option.some.injEq] at hs
    subst hs
    simpa [roundKeys] using h
  | cons e t ih =>
    simp only [caRun] at hs
    split at hs
    · cases hs
    rename_i s1 h1
    have hle : s1.certCounter ≤ 2 ^ 63 := Nat.le_trans (counter_mono c t s1 s' hs) hlt
    have hst := issuesInv_step c hX hC hr e (fun e' he' => by
      simp only [List.mem_singleton] at he'; subst he'; exact hpe e' (by simp)) h h1 hle
    have := ih (fun e' he' => hpe e' (List.mem_cons_of_mem _ he')) hst hs
    rw [List.append_assoc] at this
    have e2 : roundKeys c.certPerPeriod (e :: t) = roundKeys c.certPerPeriod [e] ++ roundKeys c.certPerPeriod t := by
      simp [roundKeys]
    rw [e2]
    exact this

theorem issuesInv_init (sha : Str → Str) (signer rootPub ca : Str) : IssuesInv L X ca [] (initCA X sha signer rootPub).2 :=
  ⟨rfl, rfl, (by intro j x hx; simp [initCA] at hx), (by intro x hx; cases hx),
    ⟨(by intro x hx; cases hx), by intro k g hk; cases hk⟩⟩

theorem root_subject (hX : X.Laws) (sha : Str → Str) (signer rootPub : Str) : (initCA X sha signer rootPub).1.subjectCN = signer := by
  simp only [initCA, generateRoot, signCertificate]
  split
  · rw [hX.createSubject]; rfl
  · rw [hX.createSubject]; rfl

/-! ### C153 -/

/-- C153. In every history of a CA the certificates sent to the loggers carry, in order, exactly the keys generated in the
rounds; the one in place `j` has the subject "Testing Dummy j" (from 1), names the CA as issuer, is no CA certificate, has the
hash of its key as key id, and an extension with the id `j` and no entry. -/
theorem C153_issued (hX : X.Laws) (hC : X.CertLaws) (sha : Str → Str) (signer rootPub : Str) (evs : List CAEvent)
    (hpe : PlainEvents evs) (s : CAState)
    (h : caRun X c (initCA X sha signer rootPub).1 (initCA X sha signer rootPub).2 evs = some s) (hlt : s.issued.length < 2 ^ 63) :
    s.issued.map Cert.publicKey = roundKeys c.certPerPeriod evs ∧
    ∀ (j : Nat) x, s.issued[j]? = some x → LeafOf (L := L) X signer j x := by
  have hc : s.certCounter = s.issued.length + 1 := by
    have := caRun_induct X c (initCA X sha signer rootPub).1 (P := IssuedInv X) (issuedInv_init X sha signer rootPub)
      (fun s e s' hp hs => issuedInv_step c _ hX e hp hs) evs h
    rw [this.1]
  have := issuesInv_run c hX hC (root_subject hX sha signer rootPub) evs hpe (issuesInv_init sha signer rootPub signer) h (by omega)
  exact ⟨by simpa using this.keys, this.leaves⟩

/-- C153. No two certificates sent have the same subject or the same id. -/
theorem C153_subjects_differ (hX : X.Laws) (hC : X.CertLaws) (sha : Str → Str) (signer rootPub : Str) (evs : List CAEvent)
    (hpe : PlainEvents evs) (s : CAState)
    (h : caRun X c (initCA X sha signer rootPub).1 (initCA X sha signer rootPub).2 evs = some s) (hlt : s.issued.length < 2 ^ 63)
    (i j : Nat) (x y : Cert) (hx : s.issued[i]? = some x) (hy : s.issued[j]? = some y)
    (he : x.subjectCN = y.subjectCN ∨ x.rid X = y.rid X) : i = j := by
  obtain ⟨_, hl⟩ := C153_issued c hX hC sha signer rootPub evs hpe s h hlt
  have h1 := hl i x hx
  have h2 := hl j y hy
  rcases he with he | he
  · rw [h1.subject, h2.subject, List.append_cancel_left_eq] at he
    have := itoa_inj he
    omega
  · unfold Cert.rid at he
    rw [h1.ext, h2.ext] at he
    simpa using he

/-- C153. Every certificate the CA would finally sign (`SignAllCerts`) has the subject, key, key id and id of a certificate it
sent to the loggers, names the CA as issuer, is no CA certificate, and carries exactly the entries collected in the pool. -/
theorem C153_final (hX : X.Laws) (hC : X.CertLaws) (sha : Str → Str) (signer rootPub : Str) (evs : List CAEvent)
    (hpe : PlainEvents evs) (hsha : ∀ k ∈ roundKeys c.certPerPeriod evs, L.sha256 k ≠ []) (s : CAState)
    (h : caRun X c (initCA X sha signer rootPub).1 (initCA X sha signer rootPub).2 evs = some s) (hlt : s.issued.length < 2 ^ 63)
    (f : Cert) (hf : f ∈ signAll X L.sha256 (initCA X sha signer rootPub).1 s) :
    (∃ y ∈ s.issued, SameHolder X y f) ∧ f.issuerCN = signer ∧ f.isCA = false ∧
      ∃ x ∈ s.pool.getCerts, x.publicKey = f.publicKey ∧ f.parseExt X = x.parseExt X := by
  have hc : s.certCounter = s.issued.length + 1 := by
    have := caRun_induct X c (initCA X sha signer rootPub).1 (P := IssuedInv X) (issuedInv_init X sha signer rootPub)
      (fun s e s' hp hs => issuedInv_step c _ hX e hp hs) evs h
    rw [this.1]
  have hi := issuesInv_run c hX hC (root_subject hX sha signer rootPub) evs hpe (issuesInv_init sha signer rootPub signer) h (by omega)
  obtain ⟨x, hx, rfl⟩ := List.mem_map.1 hf
  obtain ⟨y, hy, hk⟩ := hi.pool x hx
  obtain ⟨j, hj⟩ := List.mem_iff_getElem?.1 hy
  have hl := hi.leaves j y hj
  have hsk : L.sha256 y.publicKey ≠ [] := by
    refine hsha _ ?_
    have := List.mem_map_of_mem (f := Cert.publicKey) hy
    rw [hi.keys] at this
    simpa using this
  have hski : x.subjectKeyId ≠ [] := by
    rw [hk.keyId, hl.keyId hsk]
    exact hsk
  obtain ⟨k1, k2, k3, k4⟩ := sign_keeps (initCA X sha signer rootPub).1 hX L.sha256 x (hi.exts.certs x hx)
    (by rw [hk.rawSubject]; exact hl.named) hski
  have hf' : signCertificate X L.sha256 (x.forSigning X) (initCA X sha signer rootPub).1 x.publicKey =
      X.createCert (x.forSigning X) (initCA X sha signer rootPub).1 x.publicKey := by
    unfold signCertificate
    rw [if_neg]
    show ¬ x.subjectKeyId.length = 0
    simpa using hski
  have hca : (signCertificate X L.sha256 (x.forSigning X) (initCA X sha signer rootPub).1 x.publicKey).isCA = x.isCA := by
    rw [hf', hC.isCA]; rfl
  have hkey : (signCertificate X L.sha256 (x.forSigning X) (initCA X sha signer rootPub).1 x.publicKey).publicKey = x.publicKey := by
    rw [hf', hC.key]
  refine ⟨⟨y, hy, ⟨?_, k2.trans hk.rawSubject, hkey.trans hk.key, k3.trans hk.keyId, hca.trans hk.isCA, ?_⟩⟩, ?_, ?_, x, hx, hkey.symm, k1⟩
  · rw [hf', hX.createSubject]
    exact hk.subject
  · unfold Cert.rid
    rw [k1]
    exact hk.rid
  · rw [k4, root_subject hX]
  · rw [hca, hk.isCA, hl.leaf]

end

namespace Ref

theorem certLaws : xlib.CertLaws := ⟨fun _ _ _ => rfl, fun _ _ _ => rfl⟩

/-- A round, the tree head of L1, a proof for the second certificate, and another round. -/
def issuing : List CAEvent :=
  [.start (leafKey 0), .sth sth, .poi ⟨some ⟨[go!"x"], 1⟩, leafKey 0 1, go!"C1", go!"L1"⟩, .start (leafKey 1)]

theorem issuing_plain : PlainEvents issuing := by
  intro e he
  simp only [issuing, List.mem_cons, List.not_mem_nil, or_false] at he
  rcases he with rfl | rfl | rfl | rfl
  · trivial
  · exact info_plain.sth
  · refine ⟨?_, ?_, ?_⟩
    all_goals first | (unfold Ascii; decide +kernel) | (intro q h; cases h; decide) | (intro q h; cases h)
  · trivial

/-- Non-vacuous: four certificates, two rounds, an entry in the second. -/
example : ∃ s, caRun xlib caConf caRoot caInit issuing = some s ∧
    s.issued.map (fun x => (x.subjectCN, x.publicKey)) =
      [(go!"Testing Dummy 1", go!"key0"), (go!"Testing Dummy 2", go!"key1"), (go!"Testing Dummy 3", go!"key10"),
        (go!"Testing Dummy 4", go!"key11")] ∧
    roundKeys caConf.certPerPeriod issuing = [go!"key0", go!"key1", go!"key10", go!"key11"] ∧
    (∀ k ∈ roundKeys caConf.certPerPeriod issuing, lib.sha256 k ≠ []) ∧
    (signAll xlib lib.sha256 caRoot s).map (fun f => (f.subjectCN, (f.parseExt xlib).loggers.length)) =
      [(go!"Testing Dummy 1", 0), (go!"Testing Dummy 2", 1), (go!"Testing Dummy 3", 0), (go!"Testing Dummy 4", 0)] :=
  ⟨_, rfl, by decide +kernel, by decide +kernel, by decide +kernel, by decide +kernel⟩

end Ref

end CTng
