import Verif.Props.SystemSth
/-
C117: the revocations of honest CAs at the clients, after the gossipers have signed them.
-/
set_option autoImplicit false

namespace CTng
open Client

variable {L : Lib} (X : XLib)

/-- Hash values of one length: messages that end in two of them determine what comes before. -/
theorem srh_period {p p' : Str} {old old' d d' : BitSet} (n : Nat) (hlen : ∀ x, (L.sha256 x).length = n)
    (h : L.sha256 (srhMessage L X p old d) = L.sha256 (srhMessage L X p' old' d')) :
    p = p' ∨ CollisionIn L.sha256 (srhInputs L X p old d) (srhInputs L X p' old' d') := by
  rcases srh_bytes X h with h1 | h1
  · left
    have h2 := (List.append_inj' h1 (by rw [hlen, hlen])).1
    exact (List.append_inj' h2 (by rw [hlen, hlen])).1
  · exact .inr h1

section CA
variable (J : L.JsonLaws) (pub : L.RsaPriv → L.RsaPub) (laws : L.RsaLaws pub) (c : CAConf L) (root : Cert) (cc : CryptoConfig L)
  (hr : Registered pub c cc) (hX : X.Laws) (sha : Str → Str) (signer rootPub : Str)
include J laws hr hX

/-- C117, what holds: let `f` be a verifying object with the payload of the revocation an honest CA publishes at the end of its first
period, dated as the CA dated it. A usable client that has no vector of the CA yet accepts an update with `f` and takes over the
whole vector. Missing: other dates (`C117_violated_other_minute`), later periods (`C117_violated_later_revocation`). -/
theorem C117_accepted_partial (evs : List CAEvent) (hf : hasFinish evs = false) (t : Instant) (pos : List Nat) (s' : CAState)
    (h : caRun X c root (initCA X sha signer rootPub).2 (evs ++ [.finish t pos]) = some s') :
    ∃ g, s'.revStorage.get (caNextPeriod t) = some g ∧
      ∀ f : GossipObj, f.payload = g.payload → f.verify cc = .ok → f.period = caNextPeriod t →
      ∀ u st, u.revs = [f] → u.sths = [] → u.pomCONs = [] → u.pomACCs = [] → Free st → st.crvDB.get c.signer = none →
        ∃ st', handleUpdate X cc true u st = (.accepted, st') ∧ st'.crvDB.get c.signer = some s'.crv.current ∧
          ∀ cert, cert.issuerCN = c.signer → cert.rid X ∈ revokedIn true (evs ++ [.finish t pos]) →
            verifyCTngExt X cc st' cert ≠ .accept := by
  obtain ⟨g, st0, h1, h2, h3, h4, h5⟩ := published_exact X c root hX hr.ascii sha signer rootPub evs t pos s' h
  refine ⟨g, h1, fun f hpay hv hper u st e1 e2 e3 e4 hfree hnone => ?_⟩
  have hvec : (applied X u st).crvDB.get c.signer = some s'.crv.current := by
    show (afterRevs X u.revs st.crvDB).get c.signer = _
    have hd : deltaOf X f = (c.signer, s'.crv.current) := by
      have hfg : getSRHandDCRV X f = getSRHandDCRV X g := by unfold getSRHandDCRV; rw [hpay]
      unfold deltaOf
      rw [hfg, hpay, h3, h5, hf]; rfl
    rw [afterRevs_get, hnone, e1]
    simp [hd]
  refine ⟨applied X u st, ?_, hvec, ?_⟩
  · refine (C50_accepted_iff X cc true u st _).2 ⟨hfree, ⟨?_, ?_, ?_⟩, rfl⟩
    · intro pre r post hu
      rw [e1] at hu
      have hpre : pre = [] ∧ r = f := by
        cases pre with
        | nil => simp at hu; exact ⟨rfl, hu.1.symm⟩
        | cons a b => simp at hu
      obtain ⟨rfl, rfl⟩ := hpre
      refine ⟨fun _ => hv, ?_⟩
      have hfg : getSRHandDCRV X r = getSRHandDCRV X g := by unfold getSRHandDCRV; rw [hpay]
      unfold RevPasses
      rw [hfg, hpay, h5, h3, hper, hf]
      simp only [Bool.false_eq_true, if_false, honestSRH]
      rw [srh_passes_iff X J pub laws cc hr.noEmpty _ hr.can _ hr.safe hr.key]
      show L.sha256 (srhMessage L X _ ((st.crvDB.get c.signer).getD _) _) = _
      rw [hnone]; rfl
    · rw [e2]; intro g hg; cases hg
    · rw [e3, e4]; intro g hg; cases hg
  · intro cert hi hrid hacc
    obtain ⟨_, _, v, hv1, hv2⟩ := C51_accepted_partial X cc _ cert hacc
    rw [hi, hvec] at hv1
    cases hv1
    have hw := vecStep X c root _ (s := (initCA X sha signer rootPub).2) (BitSet.wf_new crvSize) h
    rw [(hw.bits _).2 (.inl hrid)] at hv2
    cases hv2

/-- C117 fails: the signed hash of a revocation covers the period the CA wrote, clients check it with the date of the FULL object. Let
`f` be any object with the payload of a revocation an honest CA published, with another date. No client accepts an update with
`f` in it, with verification on or off and whatever it knows (or a hash collision is exhibited), and one that handles it accepts
nothing ever after. -/
theorem C117_violated_other_minute (n : Nat) (hlen : ∀ x, (L.sha256 x).length = n) (evs : List CAEvent) (t : Instant) (pos : List Nat)
    (s' : CAState) (h : caRun X c root (initCA X sha signer rootPub).2 (evs ++ [.finish t pos]) = some s') :
    ∃ g, s'.revStorage.get (caNextPeriod t) = some g ∧
      ∀ f : GossipObj, f.payload = g.payload → f.period ≠ caNextPeriod t → ∀ u, f ∈ u.revs → ∀ v st,
        ((handleUpdate X cc v u st).1 ≠ .accepted ∧
          ∀ v' us, UpdRes.accepted ∉ (runUpdates X cc v' us (handleUpdate X cc v u st).2).1) ∨
        ∃ old d, CollisionIn L.sha256 (srhInputs L X f.period old d) (srhInputs L X (caNextPeriod t) s'.crv.current d) := by
  obtain ⟨g, st0, h1, h2, h3, h4, h5⟩ := published_exact X c root hX hr.ascii sha signer rootPub evs t pos s' h
  refine ⟨g, h1, fun f hpay hper u hfu v st => ?_⟩
  by_cases hacc : (handleUpdate X cc v u st).1 = .accepted
  · right
    obtain ⟨_, hp, _⟩ := (C50_accepted_iff X cc v u st (handleUpdate X cc v u st).2).1 (Prod.ext hacc rfl)
    obtain ⟨pre, post, hu⟩ := List.append_of_mem hfu
    have hsrh := (hp.revs pre f post hu).2
    have hfg : getSRHandDCRV X f = getSRHandDCRV X g := by unfold getSRHandDCRV; rw [hpay]
    unfold RevPasses at hsrh
    rw [hfg, h5] at hsrh
    simp only [honestSRH] at hsrh
    rw [srh_passes_iff X J pub laws cc hr.noEmpty _ hr.can _ hr.safe hr.key] at hsrh
    rcases srh_period X n hlen hsrh with h6 | h6
    · exact absurd h6 hper
    · exact ⟨_, _, h6⟩
  · exact .inl ⟨hacc, fun v' us => C49_violated_never_again X cc v v' u st hacc us⟩

/-- C117 fails in ten minutes of every hour: a CA that builds its revocation in minutes 0 to 8 or 59 writes a period no clock shows.
However fast the gossipers sign it, dated by the clock of any of them, no client accepts an update with it. -/
theorem C117_violated_first_minutes (n : Nat) (hlen : ∀ x, (L.sha256 x).length = n) (evs : List CAEvent) (t : Instant)
    (ht : t.minute + 1 < 10 ∨ t.minute = 59) (pos : List Nat) (s' : CAState)
    (h : caRun X c root (initCA X sha signer rootPub).2 (evs ++ [.finish t pos]) = some s') :
    ∃ g, s'.revStorage.get (caNextPeriod t) = some g ∧
      ∀ (f : GossipObj) (t' : Instant), f.payload = g.payload → f.period = getCurrentPeriod t' → ∀ u, f ∈ u.revs → ∀ v st,
        ((handleUpdate X cc v u st).1 ≠ .accepted ∧
          ∀ v' us, UpdRes.accepted ∉ (runUpdates X cc v' us (handleUpdate X cc v u st).2).1) ∨
        ∃ old d, CollisionIn L.sha256 (srhInputs L X f.period old d) (srhInputs L X (caNextPeriod t) s'.crv.current d) := by
  obtain ⟨g, h1, h2⟩ := C117_violated_other_minute X J pub laws c root cc hr hX sha signer rootPub n hlen evs t pos s' h
  refine ⟨g, h1, fun f t' hpay hper u hfu v st => h2 f hpay ?_ u hfu v st⟩
  rw [hper, caNextPeriod_eq]
  exact clock_ne_next t t' ht

/-- C117 fails for later revocations: a client has the vector of an honest CA's first period, and the CA revokes another certificate.
No client accepts an update with the revocation the CA then publishes, however it is dated. -/
theorem C117_violated_later_revocation (n : Nat) (hlen : ∀ x, (L.sha256 x).length = n) (evs between : List CAEvent) (t0 t : Instant)
    (pos0 pos : List Nat) (s0 s' : CAState)
    (h0 : caRun X c root (initCA X sha signer rootPub).2 (evs ++ [.finish t0 pos0]) = some s0)
    (h : caRun X c root (initCA X sha signer rootPub).2 (evs ++ [.finish t0 pos0] ++ between ++ [.finish t pos]) = some s')
    (i : Nat) (hi : i ∈ revokedIn false between) (hn : s0.crv.current.test i = false) :
    ∃ g, s'.revStorage.get (caNextPeriod t) = some g ∧
      ∀ f : GossipObj, f.payload = g.payload → ∀ u, f ∈ u.revs → ∀ v st, st.crvDB.get c.signer = some s0.crv.current →
        ((handleUpdate X cc v u st).1 ≠ .accepted ∧
          ∀ v' us, UpdRes.accepted ∉ (runUpdates X cc v' us (handleUpdate X cc v u st).2).1) ∨
        ∃ old d, CollisionIn L.sha256 (srhInputs L X f.period old d) (srhInputs L X (caNextPeriod t) s'.crv.current d) := by
  obtain ⟨g, h1, h2⟩ := C117_violated_other_minute X J pub laws c root cc hr hX sha signer rootPub n hlen _ t pos s' h
  refine ⟨g, h1, fun f hpay u hfu v st hv => ?_⟩
  by_cases hper : f.period = caNextPeriod t
  · by_cases hacc : (handleUpdate X cc v u st).1 = .accepted
    · right
      obtain ⟨_, hp, _⟩ := (C50_accepted_iff X cc v u st (handleUpdate X cc v u st).2).1 (Prod.ext hacc rfl)
      obtain ⟨pre, post, hu⟩ := List.append_of_mem hfu
      have hsrh := (hp.revs pre f post hu).2
      have hfg : getSRHandDCRV X f = getSRHandDCRV X g := by unfold getSRHandDCRV; rw [hpay]
      have hvec : (afterRevs X pre st.crvDB).get c.signer = some s0.crv.current := by rw [afterRevs_get, hv]; rfl
      obtain ⟨g', k1, _, _, k4⟩ := later_iff X J pub laws c root cc hr hX sha signer rootPub evs between t0 t pos0 pos s0 s' h0 h _ hvec
      cases h1.symm.trans k1
      obtain ⟨_, _, k5, _, k6, k7, _⟩ := published_exact X c root hX hr.ascii sha signer rootPub _ t pos s' h
      cases h1.symm.trans k5
      unfold RevPasses at hsrh
      rw [hfg, hpay, hper, ← k7] at hsrh
      rcases k4 hsrh with h6 | h6
      · rw [h6 i hi] at hn; cases hn
      · rw [hper]; exact ⟨_, _, h6⟩
    · exact .inl ⟨hacc, fun v' us => C49_violated_never_again X cc v v' u st hacc us⟩
  · exact h2 f hpay hper u hfu v st

end CA

/-! ### Examples -/

namespace Ref

/-- 32 bytes for every string. -/
def hash32 (s : Str) : Str :=
  (List.range 32).map fun i => UInt8.ofNat (s.foldl (fun a b => a * 257 + b.toNat + 1) 0 / 256 ^ i % 256)

theorem hash32_length (s : Str) : (hash32 s).length = 32 := by simp [hash32]

/-- The library with hash values of one length. -/
def hlib : Lib := { lib with sha256 := hash32 }

theorem hlib_rsa : hlib.RsaLaws rsaPub := ⟨rsaLaws.complete, rsaLaws.unique, rsaLaws.digest, rsaLaws.absent⟩
theorem hlib_json : hlib.JsonLaws := ⟨jsonLaws.two, jsonLaws.threshold⟩

def hconf (self : Str) : CryptoConfig hlib where
  threshold := 2
  n := 3
  hashScheme := 4
  signScheme := go!"rsa"
  thresholdScheme := go!"bls"
  selfID := self
  signPublicMap := rsaMap [go!"L1", go!"C1", go!"M1", go!"G1", go!"G2", go!"G3"]
  signSecretKey := self
  thresholdPublicMap := blsMap [go!"G1", go!"G2", go!"G3"]
  thresholdSecretKey := self

def hca : CAConf hlib := ⟨go!"C1", hconf (go!"C1"), 2, 0, 0⟩

theorem hca_registered : Registered (L := hlib) rsaPub hca (hconf (go!"M1")) where
  can := fun d => ⟨_, rfl⟩
  safe := by unfold Safe; decide
  ascii := by unfold Ascii; decide
  signer := by decide
  scheme := rfl
  key := rfl
  noEmpty := rfl

def hroot : Cert := (initCA xlib hlib.sha256 (go!"C1") (go!"rootkey")).1
def hinit : CAState := (initCA xlib hlib.sha256 (go!"C1") (go!"rootkey")).2

/-- C1 revokes certificate 4 and publishes in minute 34 (for 35): new clients take it over if it is dated 35. -/
example : ∃ s' g, caRun xlib hca hroot hinit [.revoke 4, .finish at34 []] = some s' ∧ s'.revStorage.get (caNextPeriod at34) = some g ∧
    ∀ f : GossipObj, f.payload = g.payload → f.verify (hconf (go!"M1")) = .ok → f.period = caNextPeriod at34 →
      ∃ st', handleUpdate xlib (hconf (go!"M1")) true { emptyUpdate with revs := [f] } initClient = (.accepted, st') ∧
        ∀ cert, cert.issuerCN = go!"C1" → cert.rid xlib = 4 → verifyCTngExt xlib (hconf (go!"M1")) st' cert ≠ .accept := by
  obtain ⟨s', hs⟩ : ∃ s', caRun xlib hca hroot hinit ([.revoke 4] ++ [.finish at34 []]) = some s' := ⟨_, rfl⟩
  obtain ⟨g, h1, h2⟩ := C117_accepted_partial xlib hlib_json rsaPub hlib_rsa hca hroot _ hca_registered xlaws _ _ _ [.revoke 4] rfl at34 [] s' hs
  refine ⟨s', g, hs, h1, fun f a b d => ?_⟩
  obtain ⟨st', k1, _, k3⟩ := h2 f a b d { emptyUpdate with revs := [f] } initClient rfl rfl rfl rfl ⟨rfl, rfl, rfl⟩ rfl
  exact ⟨st', k1, fun cert e1 e2 => k3 cert e1 (by rw [e2]; simp [revokedIn])⟩

/-- C1 revokes certificate 4 and publishes in minute 4: signed by the gossipers at any time, it is no use to any client. -/
example : ∃ s' g, caRun xlib hca hroot hinit [.revoke 4, .finish at04 []] = some s' ∧ s'.revStorage.get (caNextPeriod at04) = some g ∧
    ∀ (f : GossipObj) (t' : Instant), f.payload = g.payload → f.period = getCurrentPeriod t' → ∀ u, f ∈ u.revs → ∀ v st,
      ((handleUpdate xlib (hconf (go!"M1")) v u st).1 ≠ .accepted ∧
        ∀ v' us, UpdRes.accepted ∉ (runUpdates xlib (hconf (go!"M1")) v' us (handleUpdate xlib (hconf (go!"M1")) v u st).2).1) ∨
      ∃ old d, CollisionIn hash32 (srhInputs hlib xlib f.period old d) (srhInputs hlib xlib (caNextPeriod at04) s'.crv.current d) := by
  obtain ⟨s', hs⟩ : ∃ s', caRun xlib hca hroot hinit ([.revoke 4] ++ [.finish at04 []]) = some s' := ⟨_, rfl⟩
  obtain ⟨g, h1, h2⟩ := C117_violated_first_minutes xlib hlib_json rsaPub hlib_rsa hca hroot _ hca_registered xlaws _ _ _ 32 hash32_length
    [.revoke 4] at04 (by decide) [] s' hs
  exact ⟨s', g, hs, h1, h2⟩

/-- C1 revokes certificate 7 after its first period. -/
example : ∃ s0 s', caRun xlib hca hroot hinit ([.revoke 4] ++ [.finish at58 []]) = some s0 ∧
    caRun xlib hca hroot hinit ([.revoke 4] ++ [.finish at58 []] ++ [.revoke 7] ++ [.finish at59 []]) = some s' ∧
    ∃ g, s'.revStorage.get (caNextPeriod at59) = some g ∧
      ∀ f : GossipObj, f.payload = g.payload → ∀ u, f ∈ u.revs → ∀ v st, st.crvDB.get (go!"C1") = some s0.crv.current →
        ((handleUpdate xlib (hconf (go!"M1")) v u st).1 ≠ .accepted ∧
          ∀ v' us, UpdRes.accepted ∉ (runUpdates xlib (hconf (go!"M1")) v' us (handleUpdate xlib (hconf (go!"M1")) v u st).2).1) ∨
        ∃ old d, CollisionIn hash32 (srhInputs hlib xlib f.period old d) (srhInputs hlib xlib (caNextPeriod at59) s'.crv.current d) := by
  have h : ((caRun xlib hca hroot hinit ([.revoke 4] ++ [.finish at58 []])).bind fun s0 =>
    (caRun xlib hca hroot hinit ([.revoke 4] ++ [.finish at58 []] ++ [.revoke 7] ++ [.finish at59 []])).map fun _ =>
      s0.crv.current.test 7) = some false := by decide +kernel
  obtain ⟨s0, h0, h⟩ := Option.bind_eq_some_iff.1 h
  obtain ⟨s', h1, h⟩ := Option.map_eq_some_iff.1 h
  exact ⟨s0, s', h0, h1, C117_violated_later_revocation xlib hlib_json rsaPub hlib_rsa hca hroot _ hca_registered xlaws _ _ _ 32 hash32_length
    [.revoke 4] [.revoke 7] at58 at59 [] [] s0 s' h0 h1 7 (by simp [revokedIn]) h⟩

/-- Signed by G1 and G2: the revocation built in minute 34 is accepted if dated 35 and rejected if dated 36, the one built in minute 4 is
rejected; a client that rejected one accepts no update after it. -/
example : ((revRound at34).bind fun r => (revRound at04).map fun r' =>
    let go := fun f => (runUpdates xlib m1 true [{ emptyUpdate with revs := [f] }, emptyUpdate] initClient).1
    (go (endorse r .REV_FULL (go!"35")), go (endorse r .REV_FULL (go!"36")), go (endorse r' .REV_FULL (go!"05")))) =
    some ([.accepted, .accepted], [.rejected, .blocked], [.rejected, .blocked]) := by decide +kernel

def hcert (j : Nat) : Cert := issuedCert xlib hca hroot (leafKey 0) 1 j
def hlog : LoggerConf hlib := ⟨go!"L1", [go!"C1"], [go!"C1"], hconf (go!"L1"), 0, 0⟩

/-- Certificates 1 and 2 of C1, logged by L1 in minute 34; the client has recorded the root and has a vector without them. -/
def hpipe : Option (ClientState × Cert) :=
  (loggerRun xlib hlog initLogger [.precert (hcert 0).raw, .precert (hcert 1).raw]).bind fun ls =>
  (loggerStep xlib hlog ls (.finish at34)).bind fun ls' =>
  (ls'.sthStorage.get (go!"35")).bind fun g =>
  (caRun xlib hca hroot hinit (.start (leafKey 0) :: .sth g :: ls'.sentPOIs.map (.poi ·.2))).bind fun s =>
  (signAll xlib hash32 hroot s)[0]?.map fun f =>
    ((handleUpdate xlib (hconf (go!"M1")) true { emptyUpdate with sths := [g] }
      { initClient with crvDB := GoMap.empty.set (go!"C1") (BitSet.new crvSize) }).2, f)

/-- C84: the client accepts certificate 1, and its entry meets the hypotheses of `C84_accepted_subject_logged_partial`. -/
example : (hpipe.map fun x =>
    (verifyCTngExt xlib (hconf (go!"M1")) x.1 x.2, (x.2.parseExt xlib).loggers.map fun e =>
      ((merkleNew hash32 [(hcert 0).rawSubject, (hcert 1).rawSubject]).map fun t =>
        decide (x.1.sthDB.get (e.sth.payload.p0 ++ go!"@" ++ e.sth.period) = some (hexEncode t.root)),
       e.poi.poi.map fun p => decide (p.siblings.length = merkleDepth 2)))) = some (.accept, [(some true, some true)]) := by decide +kernel

end Ref

end CTng
