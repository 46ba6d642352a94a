import Verif.Props.Client
/- Statements of honest CAs at monitors and clients: C57, C79, C85. -/
set_option autoImplicit false

namespace CTng
open Client
variable {L : Lib} (X : XLib)

/-! ### Vectors -/

theorem set_of_test {b : BitSet} {i : Nat} (h : b.test i = true) : b.set i = b := by
  unfold BitSet.test at h
  simp only [Bool.and_eq_true, decide_eq_true_eq] at h
  unfold BitSet.set
  rw [if_pos h.1]
  have : b.bits ||| 2 ^ i = b.bits := by
    apply Nat.eq_of_testBit_eq
    intro j
    rw [Nat.testBit_or, Nat.testBit_two_pow]
    by_cases hj : i = j
    · subst hj; simp [h.2]
    · simp [hj]
  rw [this]

theorem foldl_set_of_test (l : List Nat) {b : BitSet} (h : ∀ i ∈ l, b.test i = true) : l.foldl BitSet.set b = b := by
  induction l with
  | nil => rfl
  | cons i t ih =>
    rw [List.foldl_cons, set_of_test (h i List.mem_cons_self)]
    exact ih fun j hj => h j (List.mem_cons_of_mem _ hj)

theorem len_foldl_set (l : List Nat) (b : BitSet) : b.len ≤ (l.foldl BitSet.set b).len := by
  induction l generalizing b with
  | nil => exact Nat.le_refl _
  | cons i t ih =>
    refine Nat.le_trans ?_ (ih (b.set i))
    unfold BitSet.set
    simp only
    split <;> omega

theorem symDiff_new {b : BitSet} (h : crvSize ≤ b.len) : b.symDiff (BitSet.new crvSize) = b := by
  unfold BitSet.symDiff BitSet.new
  simp [Nat.max_eq_left h]

/-- The vector of a CA after a history, as a value. -/
theorem vec_exact (c : CAConf L) (root : Cert) (evs : List CAEvent) {s s' : CAState} (h : caRun X c root s evs = some s') :
    s'.crv.current = (revokedIn s.fresh evs).foldl BitSet.set s.crv.current := by
  induction evs generalizing s with
  | nil => cases h; rfl
  | cons e t ih =>
    simp only [caRun] at h
    split at h
    · cases h
    rename_i s1 h1
    cases e with
    | start pub =>
      simp only [caStep, Option.some.injEq] at h1
      subst h1
      exact ih (s := startRound X c root pub s) h
    | finish tt pos =>
      obtain ⟨_, _, _, _, rfl⟩ := endRound_some X c h1
      rw [ih h]
      cases hf : s.fresh with
      | true => simp [revokedIn, CRV.massRevoke, CRV.closePeriod, List.foldl_append]
      | false => simp [revokedIn, CRV.closePeriod]
    | request tt =>
      obtain ⟨n, hn⟩ := request_frame c tt s
      simp only [caStep, Option.some.injEq] at h1
      rw [hn] at h1; subst h1
      exact ih (s := { s with requestCount := n }) h
    | sth g =>
      obtain ⟨n, hn⟩ := sth_frame c g s
      simp only [caStep, Option.some.injEq] at h1
      rw [hn] at h1; subst h1
      exact ih (s := { s with sthStorage := n }) h
    | poi p =>
      obtain ⟨n, hn⟩ := poi_frame X p s
      simp only [caStep, Option.some.injEq] at h1
      rw [hn] at h1; subst h1
      exact ih (s := { s with pool := n }) h
    | revoke i =>
      simp only [caStep, Option.some.injEq] at h1
      subst h1
      exact ih (s := { s with crv := s.crv.revoke i }) h

/-! ### The published revocation -/

/-- The SRH string a CA makes. -/
def honestSRH (X : XLib) (c : CAConf L) (period : Str) (cur d : BitSet) : Str :=
  ((rsaSignMsg (srhMessage L X period cur d) c.crypto.signSecretKey c.crypto.selfID).getD zeroSig).toStr

/-- What a CA holds for the next period after its task at `t`: everything is signed over the plain period number, the
current vector and the delta; the delta is the whole vector the first time and empty ever after. -/
theorem published_exact (c : CAConf L) (root : Cert) (hX : X.Laws) (hid : Ascii c.crypto.selfID) (sha : Str → Str)
    (signer pub : Str) (evs : List CAEvent) (t : Instant) (pos : List Nat) (s' : CAState)
    (h : caRun X c root (initCA X sha signer pub).2 (evs ++ [.finish t pos]) = some s') :
    ∃ g st, s'.revStorage.get (caNextPeriod t) = some g ∧ generateRevocation X c st (caNextPeriod t) false = some g ∧
      g.payload.p0 = c.signer ∧ g.period = caNextPeriod t ∧
      getSRHandDCRV X g = (honestSRH X c (caNextPeriod t) s'.crv.current
        (if hasFinish evs then BitSet.new crvSize else s'.crv.current),
        if hasFinish evs then BitSet.new crvSize else s'.crv.current) := by
  rw [caRun_append] at h
  obtain ⟨s, hs, hw⟩ := caRun_total c root hX (initCA_wf (X := X) sha signer pub) evs
  rw [hs] at h
  have hv := vecStep X c root evs (s := (initCA X sha signer pub).2) (BitSet.wf_new crvSize) hs
  have hvec := vec_exact X c root evs hs
  simp only [Option.bind_some, caRun, caStep] at h
  split at h
  · cases h
  rename_i s1 h1
  simp only [Option.some.injEq] at h
  subst h
  obtain ⟨r, _, hr, _, rfl⟩ := endRound_some X c h1
  have hwf := round_wf hw pos
  generalize hst : ({ s with crv := if s.fresh then s.crv.massRevoke pos else s.crv, fresh := false } : CAState) = st at hr
  have hcrv : st.crv = if s.fresh then s.crv.massRevoke pos else s.crv := by rw [← hst]
  have hdel : st.crv.delta = if hasFinish evs then BitSet.new crvSize else st.crv.current := by
    rw [hcrv]
    cases hf : hasFinish evs with
    | true =>
      have hp : s.crv.pre = .alias := by rw [hv.pre, hf]; rfl
      have hfr : s.fresh = false := by rw [hv.fresh, hf]; simp
      simp [hfr, CRV.delta, hp]
    | false =>
      have hp : s.crv.pre = .own (BitSet.new crvSize) := by rw [hv.pre, hf]; rfl
      have hfr : s.fresh = true := by rw [hv.fresh, hf]; rfl
      simp only [hfr, if_true, CRV.delta, CRV.massRevoke, hp, Bool.false_eq_true, if_false]
      apply symDiff_new
      refine Nat.le_trans ?_ (len_foldl_set _ _)
      rw [hvec]
      exact Nat.le_trans (Nat.le_refl (initCA X sha signer pub).2.crv.current.len) (len_foldl_set _ _)
  have hcur : ((if s.fresh then s.crv.massRevoke pos else s.crv).closePeriod).current = st.crv.current := by rw [hcrv]; rfl
  refine ⟨r, st, GoMap.get_set_self _ _ _, hr, ?_⟩
  have hd := generate_decodes c hX (s := st) (hcrv ▸ hwf) (caNextPeriod t) (itoa_ascii _) hid r hr
  simp only [hcur]
  simp only [generateRevocation, revDelta, Bool.false_eq_true, if_false, Option.map_some, Option.some.injEq] at hr
  refine ⟨by rw [← hr], by rw [← hr], ?_⟩
  unfold getSRHandDCRV
  simp only [hd.1, Option.getD_some]
  refine Prod.ext ?_ hdel
  rw [← hr]
  simp only
  rw [hX.rev _ ⟨itoa_ascii _, sign_ascii _ _ _ hid⟩]
  simp only [honestSRH, srhMessage, hdel]

/-! ### Passing VerifySRH -/

/-- A signature string made with a registered key passes `VerifySRH` exactly for messages with the hash of the one signed. -/
theorem srh_passes_iff (J : L.JsonLaws) (pub : L.RsaPriv → L.RsaPub) (laws : L.RsaLaws pub) (cc : CryptoConfig L)
    (he : cc.signPublicMap.get [] = none) (k : L.RsaPriv) (hk : CanSign k) (id : Str) (hid : Safe id)
    (hkey : cc.signPublicMap.get id = some (pub k)) (msg : Str) (crv : GoMap Str BitSet) (d : BitSet) (ca period : Str) :
    verifySRH X cc crv ((rsaSignMsg msg k id).getD zeroSig).toStr d ca period = .ok ↔
      L.sha256 (srhMessage L X period ((crv.get ca).getD d) d) = L.sha256 msg := by
  obtain ⟨b, hb⟩ := hk (L.sha256 msg)
  have hs : rsaSignMsg msg k id = some ⟨b, id⟩ := by simp only [rsaSignMsg, hb, Option.map_some]
  rw [hs, Option.getD_some]
  obtain ⟨m, h1, h2, h3⟩ := fromStr_iff.1 (rsaSig_roundtrip J (⟨b, id⟩ : RSASig) hid)
  have hold : ∀ old, (crv.get ca = some old ∨ crv.get ca = none ∧ old = d) ↔ old = (crv.get ca).getD d := by
    intro old
    cases crv.get ca <;> simp [eq_comm]
  rw [C47_srh_iff X pub laws cc he]
  constructor
  · rintro ⟨id', bytes, old, ho, m', g1, g2, g3, g4⟩
    rw [(hold old).1 ho] at g4
    rw [h1] at g1; cases g1
    rw [h2] at g2; cases g2
    rw [h3] at g3; subst g3
    simp only at g4
    rw [hkey] at g4
    exact laws.digest _ _ _ _ (laws.unique _ _ _ g4) hb
  · intro h
    refine ⟨id, b, _, (hold _).2 rfl, m, h1, h2, h3, ?_⟩
    rw [hkey, h]
    exact laws.complete _ _ _ hb

/-- C79, the SRH of a CA names the key it is checked with: C79 holds for strings that name the CA. -/
theorem C79_named_key_partial (pub : L.RsaPriv → L.RsaPub) (laws : L.RsaLaws pub) (cc : CryptoConfig L)
    (he : cc.signPublicMap.get [] = none) (hg : KeysGenuine cc pub) (crv : GoMap Str BitSet) (srh : Str) (d : BitSet)
    (ca period : Str) (h : verifySRH X cc crv srh d ca period = .ok) (hn : (RSASig.value L srh).id = ca) :
    ∃ k bytes, cc.signPublicMap.get ca = some (pub k) ∧
      SignedWith k (srhMessage L X period ((crv.get ca).getD d) d) bytes := by
  obtain ⟨id, bytes, old, ho, m, hj, hh, hid, hv⟩ := (C47_srh_iff X pub laws cc he crv srh d ca period).1 h
  have hval : RSASig.fromStr L srh = some ⟨bytes, id⟩ := fromStr_iff.2 ⟨m, hj, hh, hid⟩
  have hid' : id = ca := by rw [← hn]; simp [RSASig.value, hj, hh, hid]
  have hold : old = (crv.get ca).getD d := by
    rcases ho with ho | ⟨ho, rfl⟩ <;> simp [ho]
  subst hid'
  rw [hold] at hv
  cases hk : cc.signPublicMap.get id with
  | none => rw [hk] at hv; exact absurd hv (laws.absent _ _)
  | some p =>
    obtain ⟨k, rfl⟩ := hg id p hk
    rw [hk] at hv
    exact ⟨k, bytes, rfl, laws.unique _ _ _ hv⟩

/-- C79 is false: any other registered party, for instance a logger, can sign a revocation hash of a CA. -/
theorem C79_violated_other_key (J : L.JsonLaws) (pub : L.RsaPriv → L.RsaPub) (laws : L.RsaLaws pub) (cc : CryptoConfig L)
    (he : cc.signPublicMap.get [] = none) (k : L.RsaPriv) (hk : CanSign k) (id : Str) (hid : Safe id)
    (hkey : cc.signPublicMap.get id = some (pub k)) (crv : GoMap Str BitSet) (d : BitSet) (ca period : Str) :
    ∃ srh, verifySRH X cc crv srh d ca period = .ok ∧
      ∃ bytes, srh = (RSASig.mk bytes id).toStr ∧ SignedWith k (srhMessage L X period ((crv.get ca).getD d) d) bytes := by
  obtain ⟨b, hb⟩ := hk (L.sha256 (srhMessage L X period ((crv.get ca).getD d) d))
  have hs : rsaSignMsg (srhMessage L X period ((crv.get ca).getD d) d) k id = some ⟨b, id⟩ := by
    simp only [rsaSignMsg, hb, Option.map_some]
  have := (srh_passes_iff X J pub laws cc he k hk id hid hkey (srhMessage L X period ((crv.get ca).getD d) d) crv d ca period).2 rfl
  rw [hs] at this
  exact ⟨_, this, b, rfl, hb⟩

/-- The byte strings hashed for an SRH. -/
def srhInputs (L : Lib) (X : XLib) (period : Str) (old d : BitSet) : List Str :=
  [srhMessage L X period old d, period ++ L.sha256 (X.marshal old) ++ L.sha256 (X.marshal d), X.marshal old, X.marshal d]

/-- Equal message hashes: the same bytes were hashed, or the hash collides on the bytes hashed. -/
theorem srh_bytes {p p' : Str} {old old' d d' : BitSet}
    (h : L.sha256 (srhMessage L X p old d) = L.sha256 (srhMessage L X p' old' d')) :
    p ++ L.sha256 (X.marshal old) ++ L.sha256 (X.marshal d) = p' ++ L.sha256 (X.marshal old') ++ L.sha256 (X.marshal d') ∨
      CollisionIn L.sha256 (srhInputs L X p old d) (srhInputs L X p' old' d') := by
  by_cases h1 : srhMessage L X p old d = srhMessage L X p' old' d'
  · by_cases h2 : p ++ L.sha256 (X.marshal old) ++ L.sha256 (X.marshal d) =
      p' ++ L.sha256 (X.marshal old') ++ L.sha256 (X.marshal d')
    · exact .inl h2
    · exact .inr ⟨_, by simp [srhInputs], _, by simp [srhInputs], h2, h1⟩
  · exact .inr ⟨_, by simp [srhInputs], _, by simp [srhInputs], h1, h⟩

/-- Same period and same delta: the old vectors are the same. -/
theorem srh_old (hX : X.Laws) {p : Str} {old old' d : BitSet} (hw : old.WF) (hw' : old'.WF)
    (h : L.sha256 (srhMessage L X p old d) = L.sha256 (srhMessage L X p old' d)) :
    old = old' ∨ CollisionIn L.sha256 (srhInputs L X p old d) (srhInputs L X p old' d) := by
  rcases srh_bytes X h with h1 | h1
  · rw [List.append_left_inj, List.append_right_inj] at h1
    by_cases h2 : X.marshal old = X.marshal old'
    · have := hX.bits old hw
      rw [h2, hX.bits old' hw'] at this
      exact .inl (Option.some.inj this).symm
    · exact .inr ⟨_, by simp [srhInputs], _, by simp [srhInputs], h2, h1⟩
  · exact .inr h1

theorem padTwo_of_ten {n : Nat} (h : 10 ≤ n) (h' : n < 100) : padInt 2 n = itoa n := by
  have h1 := padInt_two n h'
  rw [h1, itoa, if_neg (by omega), itoa, if_pos (by omega)]
  rfl

/-- No clock shows the period number a CA or logger writes in minutes 0 to 8 and 59. -/
theorem clock_ne_next (t t' : Instant) (ht : t.minute + 1 < 10 ∨ t.minute = 59) :
    getCurrentPeriod t' ≠ itoa (t.minute + 1) := by
  have hb := t'.minute_lt
  rw [period_eq_padInt]
  intro h
  rcases ht with ht | ht
  · have hl := congrArg List.length h
    rw [padInt_length 1 _ (by omega), itoa, if_pos ht] at hl
    simp at hl
  · have := atoi_padInt_two t'.minute (by omega)
    rw [h, atoi_itoa, ht] at this
    have := Option.some.inj this
    omega

/-- What the parties must have configured for the statements of an honest CA. -/
structure Registered (pub : L.RsaPriv → L.RsaPub) (c : CAConf L) (cc : CryptoConfig L) : Prop where
  can : CanSign c.crypto.signSecretKey
  safe : Safe c.crypto.selfID
  ascii : Ascii c.crypto.selfID
  signer : c.signer ≠ []
  scheme : cc.signScheme = go!"rsa"
  key : cc.signPublicMap.get c.crypto.selfID = some (pub c.crypto.signSecretKey)
  noEmpty : cc.signPublicMap.get [] = none

theorem hasFinish_append (a b : List CAEvent) : hasFinish (a ++ b) = (hasFinish a || hasFinish b) := by
  induction a with
  | nil => rfl
  | cons e r ih => cases e <;> first | rfl | exact ih

section CA
variable (J : L.JsonLaws) (pub : L.RsaPriv → L.RsaPub) (laws : L.RsaLaws pub) (c : CAConf L) (root : Cert) (cc : CryptoConfig L)
  (hr : Registered pub c cc) (hX : X.Laws) (sha : Str → Str) (signer rootPub : Str)
include J laws hr hX

/-- C57, first period: the revocation a CA publishes at the end of its first period verifies and passes `VerifySRH` at
everyone who knows no vector of the CA. -/
theorem C57_first_period_partial (evs : List CAEvent) (hf : hasFinish evs = false) (t : Instant) (pos : List Nat) (s' : CAState)
    (h : caRun X c root (initCA X sha signer rootPub).2 (evs ++ [.finish t pos]) = some s') (crv : GoMap Str BitSet)
    (hn : crv.get c.signer = none) :
    ∃ g, s'.revStorage.get (caNextPeriod t) = some g ∧ g.verify cc = .ok ∧
      verifySRH X cc crv (getSRHandDCRV X g).1 (getSRHandDCRV X g).2 g.payload.p0 g.period = .ok ∧
      (getSRHandDCRV X g).2 = s'.crv.current := by
  obtain ⟨g, st, h1, h2, h3, h4, h5⟩ := published_exact X c root hX hr.ascii sha signer rootPub evs t pos s' h
  refine ⟨g, h1, C76_revocations_verify X J pub laws c hr.can hr.safe hr.signer cc hr.scheme hr.key st _ false g h2, ?_, ?_⟩
  · rw [h5, h3, h4, hf]
    simp only [Bool.false_eq_true, if_false, honestSRH]
    rw [srh_passes_iff X J pub laws cc hr.noEmpty _ hr.can _ hr.safe hr.key, hn]
    rfl
  · rw [h5, hf]; rfl

/-- C57, later periods. A monitor that processed the first revocation of a CA has, from then on, the vector of the first
period (C48). A later revocation passes there exactly when the CA's vector is still the same (or the hash collides on the
bytes hashed). -/
theorem later_iff (evs between : List CAEvent) (t0 t : Instant) (pos0 pos : List Nat) (s0 s' : CAState)
    (h0 : caRun X c root (initCA X sha signer rootPub).2 (evs ++ [.finish t0 pos0]) = some s0)
    (h : caRun X c root (initCA X sha signer rootPub).2 (evs ++ [.finish t0 pos0] ++ between ++ [.finish t pos]) = some s')
    (crv : GoMap Str BitSet) (hv : crv.get c.signer = some s0.crv.current) :
    ∃ g, s'.revStorage.get (caNextPeriod t) = some g ∧ g.verify cc = .ok ∧
      ((∀ j ∈ revokedIn false between, s0.crv.current.test j = true) →
        verifySRH X cc crv (getSRHandDCRV X g).1 (getSRHandDCRV X g).2 g.payload.p0 g.period = .ok) ∧
      (verifySRH X cc crv (getSRHandDCRV X g).1 (getSRHandDCRV X g).2 g.payload.p0 g.period = .ok →
        (∀ j ∈ revokedIn false between, s0.crv.current.test j = true) ∨
        CollisionIn L.sha256 (srhInputs L X (caNextPeriod t) s0.crv.current (BitSet.new crvSize))
          (srhInputs L X (caNextPeriod t) s'.crv.current (BitSet.new crvSize))) := by
  obtain ⟨g, st, h1, h2, h3, h4, h5⟩ := published_exact X c root hX hr.ascii sha signer rootPub
    (evs ++ [.finish t0 pos0] ++ between) t pos s' h
  have hf : hasFinish (evs ++ [.finish t0 pos0] ++ between) = true := by
    rw [hasFinish_append, hasFinish_append]
    simp [hasFinish]
  rw [hf] at h5
  simp only [if_true] at h5
  have hrun : caRun X c root s0 (between ++ [.finish t pos]) = some s' := by
    rw [List.append_assoc, caRun_append, h0] at h
    exact h
  have hw0 := vecStep X c root _ (s := (initCA X sha signer rootPub).2) (BitSet.wf_new crvSize) h0
  have hfresh : s0.fresh = false := by
    rw [hw0.fresh, hasFinish_append]
    simp [hasFinish]
  have hv' := vecStep X c root _ hw0.wf hrun
  have hre : revokedIn false (between ++ [.finish t pos]) = revokedIn false between := by
    clear hrun hv' h hf
    induction between with
    | nil => rfl
    | cons e r ih => cases e <;> simp_all [revokedIn]
  have hcur : s'.crv.current = (revokedIn false between).foldl BitSet.set s0.crv.current := by
    rw [vec_exact X c root _ hrun, hfresh, hre]
  have key : verifySRH X cc crv (getSRHandDCRV X g).1 (getSRHandDCRV X g).2 g.payload.p0 g.period = .ok ↔
      L.sha256 (srhMessage L X (caNextPeriod t) s0.crv.current (BitSet.new crvSize)) =
        L.sha256 (srhMessage L X (caNextPeriod t) s'.crv.current (BitSet.new crvSize)) := by
    rw [h5, h3, h4]
    simp only [honestSRH]
    rw [srh_passes_iff X J pub laws cc hr.noEmpty _ hr.can _ hr.safe hr.key, hv]
    rfl
  refine ⟨g, h1, C76_revocations_verify X J pub laws c hr.can hr.safe hr.signer cc hr.scheme hr.key st _ false g h2, ?_, ?_⟩
  · intro hno
    rw [key, hcur, foldl_set_of_test _ hno]
  · intro hok
    rcases srh_old X hX hw0.wf hv'.wf (key.1 hok) with he | hc
    · left
      intro j hj
      rw [he, (hv'.bits j)]
      rw [hfresh, hre]
      exact .inl hj
    · exact .inr hc

/-- C57, later periods without a new revocation: the published revocation verifies and passes. -/
theorem C57_nothing_new_partial (evs between : List CAEvent) (t0 t : Instant) (pos0 pos : List Nat) (s0 s' : CAState)
    (h0 : caRun X c root (initCA X sha signer rootPub).2 (evs ++ [.finish t0 pos0]) = some s0)
    (h : caRun X c root (initCA X sha signer rootPub).2 (evs ++ [.finish t0 pos0] ++ between ++ [.finish t pos]) = some s')
    (hno : ∀ j ∈ revokedIn false between, s0.crv.current.test j = true)
    (crv : GoMap Str BitSet) (hv : crv.get c.signer = some s0.crv.current) :
    ∃ g, s'.revStorage.get (caNextPeriod t) = some g ∧ g.verify cc = .ok ∧
      verifySRH X cc crv (getSRHandDCRV X g).1 (getSRHandDCRV X g).2 g.payload.p0 g.period = .ok := by
  obtain ⟨g, h1, h2, h3, _⟩ := later_iff X J pub laws c root cc hr hX sha signer rootPub evs between t0 t pos0 pos s0 s' h0 h crv hv
  exact ⟨g, h1, h2, h3 hno⟩

/-- C57 is false: as soon as an honest CA revokes a certificate after its first period, its revocation no longer passes
`VerifySRH` at the monitors that have the vector of the first period (or the hash collides on the bytes hashed): the honest
CA is then accused as if it had not answered. -/
theorem C57_violated_after_new_revocation (evs between : List CAEvent) (t0 t : Instant) (pos0 pos : List Nat) (s0 s' : CAState)
    (h0 : caRun X c root (initCA X sha signer rootPub).2 (evs ++ [.finish t0 pos0]) = some s0)
    (h : caRun X c root (initCA X sha signer rootPub).2 (evs ++ [.finish t0 pos0] ++ between ++ [.finish t pos]) = some s')
    (i : Nat) (hi : i ∈ revokedIn false between) (hn : s0.crv.current.test i = false)
    (crv : GoMap Str BitSet) (hv : crv.get c.signer = some s0.crv.current) :
    ∃ g, s'.revStorage.get (caNextPeriod t) = some g ∧
      (verifySRH X cc crv (getSRHandDCRV X g).1 (getSRHandDCRV X g).2 g.payload.p0 g.period ≠ .ok ∨
        CollisionIn L.sha256 (srhInputs L X (caNextPeriod t) s0.crv.current (BitSet.new crvSize))
          (srhInputs L X (caNextPeriod t) s'.crv.current (BitSet.new crvSize))) := by
  obtain ⟨g, h1, _, _, h4⟩ := later_iff X J pub laws c root cc hr hX sha signer rootPub evs between t0 t pos0 pos s0 s' h0 h crv hv
  refine ⟨g, h1, ?_⟩
  by_cases hok : verifySRH X cc crv (getSRHandDCRV X g).1 (getSRHandDCRV X g).2 g.payload.p0 g.period = .ok
  · rcases h4 hok with h5 | h5
    · rw [h5 i hi] at hn; cases hn
    · exact .inr h5
  · exact .inl hok

/-- C57 is false for whoever joins after the first period: with no vector known, every revocation of a CA that has ever
revoked a certificate fails (or the hash collides on the bytes hashed). -/
theorem C57_violated_late_joiner (evs between : List CAEvent) (t0 t : Instant) (pos0 pos : List Nat) (s' : CAState)
    (h : caRun X c root (initCA X sha signer rootPub).2 (evs ++ [.finish t0 pos0] ++ between ++ [.finish t pos]) = some s')
    (i : Nat) (hi : s'.crv.current.test i = true) (crv : GoMap Str BitSet) (hv : crv.get c.signer = none) :
    ∃ g, s'.revStorage.get (caNextPeriod t) = some g ∧
      (verifySRH X cc crv (getSRHandDCRV X g).1 (getSRHandDCRV X g).2 g.payload.p0 g.period ≠ .ok ∨
        CollisionIn L.sha256 (srhInputs L X (caNextPeriod t) (BitSet.new crvSize) (BitSet.new crvSize))
          (srhInputs L X (caNextPeriod t) s'.crv.current (BitSet.new crvSize))) := by
  obtain ⟨g, st, h1, h2, h3, h4, h5⟩ := published_exact X c root hX hr.ascii sha signer rootPub
    (evs ++ [.finish t0 pos0] ++ between) t pos s' h
  have hf : hasFinish (evs ++ [.finish t0 pos0] ++ between) = true := by
    rw [hasFinish_append, hasFinish_append]
    simp [hasFinish]
  rw [hf] at h5
  simp only [if_true] at h5
  have hw := vecStep X c root _ (s := (initCA X sha signer rootPub).2) (BitSet.wf_new crvSize) h
  refine ⟨g, h1, ?_⟩
  by_cases hok : verifySRH X cc crv (getSRHandDCRV X g).1 (getSRHandDCRV X g).2 g.payload.p0 g.period = .ok
  · right
    rw [h5, h3, h4] at hok
    simp only [honestSRH] at hok
    rw [srh_passes_iff X J pub laws cc hr.noEmpty _ hr.can _ hr.safe hr.key, hv, Option.getD_none] at hok
    rcases srh_old X hX (BitSet.wf_new _) hw.wf hok with he | hc
    · rw [← he, BitSet.test_new] at hi; cases hi
    · exact hc
  · exact .inl hok

/-- A published revocation passed on under another period `q`, at someone who has the CA's current vector: it passes
exactly when `q` is the period it was made for (or the hash collides on the bytes hashed). -/
theorem relabelled_iff (evs : List CAEvent) (t : Instant) (pos : List Nat) (s' : CAState)
    (h : caRun X c root (initCA X sha signer rootPub).2 (evs ++ [.finish t pos]) = some s') (g full : GossipObj)
    (hg : s'.revStorage.get (caNextPeriod t) = some g) (hp : full.payload = g.payload) (crv : GoMap Str BitSet)
    (hv : crv.get c.signer = some s'.crv.current ∨ crv.get c.signer = none ∧ hasFinish evs = false) :
    (full.period = caNextPeriod t → RevPasses X cc crv full) ∧
      (RevPasses X cc crv full → full.period = caNextPeriod t ∨
        CollisionIn L.sha256 (srhInputs L X full.period s'.crv.current (getSRHandDCRV X g).2)
          (srhInputs L X (caNextPeriod t) s'.crv.current (getSRHandDCRV X g).2)) := by
  obtain ⟨g', st, h1, h2, h3, h4, h5⟩ := published_exact X c root hX hr.ascii sha signer rootPub evs t pos s' h
  rw [hg] at h1
  obtain rfl := Option.some.inj h1
  have hx : getSRHandDCRV X full = getSRHandDCRV X g := by unfold getSRHandDCRV; rw [hp]
  have hd : (getSRHandDCRV X g).2 = if hasFinish evs then BitSet.new crvSize else s'.crv.current := by rw [h5]
  have h1 : (getSRHandDCRV X g).1 = honestSRH X c (caNextPeriod t) s'.crv.current (getSRHandDCRV X g).2 := by
    rw [hd, h5]
  have hold : (crv.get c.signer).getD (getSRHandDCRV X g).2 = s'.crv.current := by
    rcases hv with hv | ⟨hv, hf⟩
    · rw [hv]; rfl
    · rw [hv, hd, hf]; rfl
  have key : RevPasses X cc crv full ↔
      L.sha256 (srhMessage L X full.period s'.crv.current (getSRHandDCRV X g).2) =
        L.sha256 (srhMessage L X (caNextPeriod t) s'.crv.current (getSRHandDCRV X g).2) := by
    unfold RevPasses
    rw [hx, hp, h3, h1]
    unfold honestSRH
    rw [srh_passes_iff X J pub laws cc hr.noEmpty _ hr.can _ hr.safe hr.key, hold]
  rw [key]
  refine ⟨fun h => by rw [h], fun h => ?_⟩
  rcases srh_bytes X h with h | h
  · rw [List.append_left_inj, List.append_left_inj] at h
    exact .inl h
  · exact .inr h

/-- C85, periods 10 to 59: the revocation an honest CA made for the minute in which the gossipers aggregate it passes
`VerifySRH` at a client that has the CA's vector (or none, for the first one). -/
theorem C85_two_digit_minutes_partial (evs : List CAEvent) (t t' : Instant) (pos : List Nat) (s' : CAState)
    (h : caRun X c root (initCA X sha signer rootPub).2 (evs ++ [.finish t pos]) = some s') (g full : GossipObj)
    (hg : s'.revStorage.get (caNextPeriod t) = some g) (hp : full.payload = g.payload) (crv : GoMap Str BitSet)
    (hv : crv.get c.signer = some s'.crv.current ∨ crv.get c.signer = none ∧ hasFinish evs = false)
    (hm : t'.minute = t.minute + 1) (ht : 10 ≤ t'.minute) (hq : full.period = getCurrentPeriod t') :
    RevPasses X cc crv full := by
  refine (relabelled_iff X J pub laws c root cc hr hX sha signer rootPub evs t pos s' h g full hg hp crv hv).1 ?_
  rw [hq, period_eq_padInt, caNextPeriod_eq, ← hm, padTwo_of_ten ht (by have := t'.minute_lt; omega)]

/-- C85 is false for the minutes 0 to 9: the gossipers put the zero-padded minute into the FULL object, the CA signed the
plain one (and "60" for minute 0), so `VerifySRH` fails whatever minute the clock shows (or the hash collides on the bytes
hashed). -/
theorem C85_violated_padding (evs : List CAEvent) (t : Instant) (pos : List Nat) (s' : CAState)
    (h : caRun X c root (initCA X sha signer rootPub).2 (evs ++ [.finish t pos]) = some s') (g full : GossipObj)
    (hg : s'.revStorage.get (caNextPeriod t) = some g) (hp : full.payload = g.payload) (crv : GoMap Str BitSet)
    (hv : crv.get c.signer = some s'.crv.current ∨ crv.get c.signer = none ∧ hasFinish evs = false)
    (ht : t.minute + 1 < 10 ∨ t.minute = 59) (hq : ClockPeriod full.period) :
    ¬ RevPasses X cc crv full ∨
      CollisionIn L.sha256 (srhInputs L X full.period s'.crv.current (getSRHandDCRV X g).2)
        (srhInputs L X (caNextPeriod t) s'.crv.current (getSRHandDCRV X g).2) := by
  by_cases hok : RevPasses X cc crv full
  · rcases (relabelled_iff X J pub laws c root cc hr hX sha signer rootPub evs t pos s' h g full hg hp crv hv).2 hok with h1 | h1
    · obtain ⟨t', ht'⟩ := hq
      rw [ht', caNextPeriod_eq] at h1
      exact absurd h1 (clock_ne_next t t' ht)
    · exact .inr h1
  · exact .inl hok

/-- C85, the consequence: a client that gets such a revocation in an update does not accept the update, and by C49 accepts
no update any more. -/
theorem C85_violated_update_not_accepted (evs : List CAEvent) (t : Instant) (pos : List Nat) (s' : CAState)
    (h : caRun X c root (initCA X sha signer rootPub).2 (evs ++ [.finish t pos]) = some s') (g full : GossipObj)
    (hg : s'.revStorage.get (caNextPeriod t) = some g) (hp : full.payload = g.payload) (cs : ClientState)
    (hv : cs.crvDB.get c.signer = some s'.crv.current ∨ cs.crvDB.get c.signer = none ∧ hasFinish evs = false)
    (ht : t.minute + 1 < 10 ∨ t.minute = 59) (hq : ClockPeriod full.period) (v : Bool) (u : ClientUpdate) (pre post : List GossipObj)
    (hu : u.revs = pre ++ full :: post) (hpre : ∀ r ∈ pre, r.payload.p0 ≠ c.signer) :
    (handleUpdate X cc v u cs).1 ≠ .accepted ∨
      CollisionIn L.sha256 (srhInputs L X full.period s'.crv.current (getSRHandDCRV X g).2)
        (srhInputs L X (caNextPeriod t) s'.crv.current (getSRHandDCRV X g).2) := by
  have hsame : (afterRevs X pre cs.crvDB).get c.signer = cs.crvDB.get c.signer := by
    rw [afterRevs_get]
    have : ((pre.map (deltaOf X)).find? fun x => x.1 = c.signer) = none := by
      rw [List.find?_eq_none]
      intro x hx
      obtain ⟨r, hr', rfl⟩ := List.mem_map.1 hx
      exact fun he => hpre r hr' (of_decide_eq_true he)
    rw [this]
    simp
  rcases C85_violated_padding X J pub laws c root cc hr hX sha signer rootPub evs t pos s' h g full hg hp
    (afterRevs X pre cs.crvDB) (by rw [hsame]; exact hv) ht hq with h1 | h1
  · left
    intro hacc
    have := (C50_accepted_iff X cc v u cs (handleUpdate X cc v u cs).2).1 (by rw [← hacc])
    exact h1 ((this.2.1.revs pre full post hu).2)
  · exact .inr h1

end CA

/-! ### Concrete cases -/

namespace Ref

theorem registered : Registered rsaPub caConf monConf.crypto where
  can d := ⟨_, rfl⟩
  safe := by unfold Safe; decide
  ascii := by unfold Ascii; decide
  signer := by decide
  scheme := rfl
  key := rfl
  noEmpty := by decide +kernel

/-- C57: the first revocation passes without a vector, the second (nothing new) with the vector of the first, the third
(certificate 7 revoked) does not. -/
example : ((caRun xlib caConf caRoot caInit [.revoke 4, .finish at58 []]).bind fun s0 =>
    (caRun xlib caConf caRoot s0 [.finish at59 []]).bind fun s1 =>
    (caRun xlib caConf caRoot s0 [.revoke 7, .finish at59 []]).map fun s2 =>
    let g0 := (s0.revStorage.get (caNextPeriod at58)).getD .zero
    let g1 := (s1.revStorage.get (caNextPeriod at59)).getD .zero
    let g2 := (s2.revStorage.get (caNextPeriod at59)).getD .zero
    let m := GoMap.empty.set (go!"C1") (getSRHandDCRV xlib g0).2
    let pass := fun m g => decide (verifySRH xlib monConf.crypto m (getSRHandDCRV xlib g).1 (getSRHandDCRV xlib g).2 g.payload.p0 g.period = .ok)
    (pass .empty g0, pass m g1, pass m g2, pass .empty g1)) = some (true, true, false, false) := by decide +kernel

/-- The hypotheses of `C57_violated_after_new_revocation` on this history. -/
example : ∃ s0 s', caRun xlib caConf caRoot caInit ([.revoke 4] ++ [.finish at58 []]) = some s0 ∧
    caRun xlib caConf caRoot caInit ([.revoke 4] ++ [.finish at58 []] ++ [.revoke 7] ++ [.finish at59 []]) = some s' ∧
    7 ∈ revokedIn false [.revoke 7] ∧ s0.crv.current.test 7 = false := by
  have h : ((caRun xlib caConf caRoot caInit [.revoke 4, .finish at58 []]).bind fun s0 =>
    (caRun xlib caConf caRoot caInit [.revoke 4, .finish at58 [], .revoke 7, .finish at59 []]).map fun _ =>
      s0.crv.current.test 7) = some false := by decide +kernel
  obtain ⟨s0, h0, h⟩ := Option.bind_eq_some_iff.1 h
  obtain ⟨s', h1, h⟩ := Option.map_eq_some_iff.1 h
  exact ⟨s0, s', h0, h1, by simp [revokedIn], h⟩

/-- An instant in minute 4, when the CA makes the revocation of minute 5. -/
def at04 : Instant := ⟨2024, 1, 1, 10, 4, 40, by decide, by decide, by decide, by decide, by decide, by decide⟩
/-- An instant in minute 34. -/
def at34 : Instant := ⟨2024, 1, 1, 10, 34, 40, by decide, by decide, by decide, by decide, by decide, by decide⟩
def at35 : Instant := ⟨2024, 1, 1, 10, 35, 10, by decide, by decide, by decide, by decide, by decide, by decide⟩

/-- C85: made in minute 4 and aggregated in minute 5, made in minute 34 and aggregated in minute 35. -/
example : ((caRun xlib caConf caRoot caInit [.revoke 4, .finish at04 []]).bind fun s0 =>
    (caRun xlib caConf caRoot caInit [.revoke 4, .finish at34 []]).map fun s1 =>
    let g0 := { (s0.revStorage.get (caNextPeriod at04)).getD .zero with period := getCurrentPeriod at05, type := .REV_FULL }
    let g1 := { (s1.revStorage.get (caNextPeriod at34)).getD .zero with period := getCurrentPeriod at35, type := .REV_FULL }
    let pass := fun g => decide (verifySRH xlib monConf.crypto .empty (getSRHandDCRV xlib g).1 (getSRHandDCRV xlib g).2 g.payload.p0 g.period = .ok)
    (pass g0, pass g1)) = some (false, true) := by decide +kernel

/-- C79: logger L1 signs a revocation hash of C1. -/
example : ∃ srh, verifySRH xlib monConf.crypto .empty srh ((BitSet.new 10).set 3) (go!"C1") (go!"5") = .ok ∧
    (RSASig.value lib srh).id = go!"L1" := by
  refine ⟨rsaStr (go!"L1") (srhMessage lib xlib (go!"5") ((BitSet.new 10).set 3) ((BitSet.new 10).set 3)), ?_, ?_⟩ <;> decide +kernel

end Ref

end CTng
