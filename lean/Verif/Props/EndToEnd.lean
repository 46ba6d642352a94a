import Verif.Props.SystemSth
/- C162: from the pre-certificate to the clients of all monitors. Joins C77 (CA, logger, client) and C116 (monitors, gossipers, client). -/
set_option autoImplicit false

namespace CTng
open Mon Client

variable {L : Lib} {X : XLib} {S : SysConf L}

/-- C162, for the minutes 10 to 59 and clients that have no vector of the CA yet. An honest CA issues certificate `y`, an honest logger
logs it and ends its period in minute `t.minute`; tree head and proof reach the CA among other messages and the CA signs. In the
minute after, the logger answers the query of one monitor `x` with the tree head, and the CA that of a monitor `w` with a revocation
`r`; gossipers and monitors run together from start-up, in any order of messages, goroutines and timers, at least T gossipers run.
Then the CA has signed one certificate with subject and key id of `y` such that every client that accepts the update of the monitor of
any `z`, and has no proof against the logger, accepts this certificate if `r` does not revoke it, and accepts no certificate revoked
by `r`, after any further updates. Missing: the minutes 0 to 9 (`C77_violated_padding`), signatures completed in the next minute
(`C116_violated_next_minute`), clients that have a vector of the CA (`C117_violated_later_revocation`). -/
theorem C162_end_to_end_partial (J : L.JsonLaws) (pub : L.RsaPriv → L.RsaPub) (laws : L.RsaLaws pub) (hX : X.Laws)
    -- the CA issues
    (c : CAConf L) (root : Cert) (hroot : root.subjectCN = c.signer) (sha : Str → Str) (rootPub : Str) (pre : List CAEvent)
    (s0 : CAState) (hs0 : caRun X c root (initCA X sha c.signer rootPub).2 pre = some s0) (hempty : s0.pool.certs = [])
    (key : Nat → Str) (hkne : ∀ i, i < c.certPerPeriod → L.sha256 (key i) ≠ [])
    (hkinj : ∀ i j, i < c.certPerPeriod → j < c.certPerPeriod → L.sha256 (key i) = L.sha256 (key j) → i = j)
    (j : Nat) (hj : j < c.certPerPeriod) (hidj : s0.certCounter + j < 2 ^ 63) (y : Cert)
    (hy : y = issuedCert X c root key s0.certCounter j)
    -- the logger logs
    (lc : LoggerConf L) (hsign : CanSign lc.crypto.signSecretKey) (hsafe : Safe lc.signer) (hascii : Ascii lc.signer)
    (hlne : lc.signer ≠ []) (levs : List LoggerEvent) (ls ls' : LoggerState)
    (hl : loggerRun X lc initLogger levs = some ls) (t t' : Instant) (hr : loggerStep X lc ls (.finish t) = some ls')
    (hyl : y.parseTBS ∈ ls.pool.getCerts) (hsne : ∀ x ∈ ls.pool.getCerts, x.subjectKeyId ≠ [])
    (hsinj : ∀ x ∈ ls.pool.getCerts, ∀ z ∈ ls.pool.getCerts, x.subjectKeyId = z.subjectKeyId → x = z)
    (hsize : ls.pool.getCerts.length < 2 ^ 63)
    (g : GossipObj) (hg : ls'.sthStorage.get (padInt 2 (t.minute + 1)) = some g)
    (sent : List (Str × POI)) (hsent : ls'.sentPOIs = ls.sentPOIs ++ sent) (ca : Str) (p : POI) (hp : (ca, p) ∈ sent)
    (hpk : p.subjectKeyId = y.subjectKeyId)
    -- the CA embeds and signs
    (hcs : c.crypto.signScheme = go!"rsa") (hck : c.crypto.signPublicMap.get lc.signer = some (pub lc.crypto.signSecretKey))
    (a b d : List CAEvent) (hev : ∀ e ∈ a ++ .sth g :: b ++ .poi p :: d, RoundEvent lc.signer y.subjectKeyId g p e)
    (s1 : CAState) (hs1 : caRun X c root (startRound X c root key s0) (a ++ .sth g :: b ++ .poi p :: d) = some s1)
    (ht : 10 ≤ t.minute + 1) (ht' : t'.minute = t.minute + 1)
    -- monitors and gossipers
    {bpub : L.BlsSec → L.BlsPub} {T : Int} {h0 h : List SysEvent} (W : Enough S T (sysRun X S Sys.init (h0 ++ h)).net)
    (H : StatementPeriod X S bpub ⟨.sth, g.period, g.payload⟩ h0 h)
    (x : Str) (hx : x ∈ S.net.ids) (hux : (sysRun X S Sys.init (h0 ++ h)).net.up x) (hf : Fetches X S (sysRun X S Sys.init h0) h x g)
    (r : GossipObj) (hrt : r.type = .REV_INIT) (hrs : r.signer ≠ []) (hr0 : r.payload.p0 = c.signer) (hrv : r.verify c.crypto = .ok)
    (H' : StatementPeriod X S bpub ⟨.rev, r.period, r.payload⟩ h0 h)
    (w : Str) (hw : w ∈ S.net.ids) (huw : (sysRun X S Sys.init (h0 ++ h)).net.up w) (hf' : Fetches X S (sysRun X S Sys.init h0) h w r)
    (hkeys : ∀ x ∈ S.net.ids, SameVerify (S.mon x).crypto c.crypto)
    -- the next update of the monitor of `z`
    (z : Str) (hz : z ∈ S.net.ids) (huz : (sysRun X S Sys.init (h0 ++ h)).net.up z) (m : MonState) (clk : Clock)
    (hclk : clk.period = getCurrentPeriod t')
    (P : PublishedIn (X := X) (S := S) ⟨.sth, g.period, g.payload⟩ h0 h z m clk)
    (P' : PublishedIn (X := X) (S := S) ⟨.rev, r.period, r.payload⟩ h0 h z m clk) :
    ∃ f ∈ signAll X L.sha256 root s1, f.subjectKeyId = y.subjectKeyId ∧ f.rawSubject = y.rawSubject ∧
      ∃ m' u, monStep X (S.mon z) m (.finish clk) = some m' ∧ m'.files.get (periodIO (S.mon z) clk) = some u ∧
        ∀ (cc : CryptoConfig L) (st st' : ClientState), SameVerify cc (S.mon z).crypto → st.crvDB.get c.signer = none →
          handleUpdate X cc true u st = (.accepted, st') → st'.pomDB.get lc.signer = none →
          ((getSRHandDCRV X r).2.test (s0.certCounter + j) = false → verifyCTngExt X cc st' f = .accept) ∧
          ∀ v us cert, cert.issuerCN = c.signer → (getSRHandDCRV X r).2.test (cert.rid X) = true →
            verifyCTngExt X cc (runUpdates X cc v us st').2 cert ≠ .accept := by
  obtain ⟨f, hfm, hf1, hf2, hacc⟩ := C77_accepted_partial J pub laws hX c root hroot sha rootPub pre s0 hs0 hempty key hkne hkinj j hj hidj y
    hy lc hsign hsafe hascii hlne levs ls ls' hl t t' hr hyl hsne hsinj hsize g hg sent hsent ca p hp hpk hcs hck a b d hev s1 hs1 ht ht'
  refine ⟨f, hfm, hf1, hf2, ?_⟩
  obtain ⟨bt, hbt, hgb, _⟩ := logged lc hX hascii levs ls ls' hl t hr hsne hsinj hsize g hg sent hsent ca p hp y.parseTBS hyl hpk
  obtain ⟨f1, f2, _, f4⟩ := built_fields lc hbt
  rw [← hgb] at f1 f2 f4
  have hv : g.verify (S.mon x).crypto = .ok := by
    rw [verify_congr (hkeys x hx), hgb]
    exact C76_tree_heads_verify X lc J pub laws hsign hsafe hlne c.crypto hcs hck t _ _ bt hbt
  obtain ⟨m1, u1, e1, e2, hrec⟩ := C116_clients_record_partial rfl H W x hx hux g hf (by simp only [GossipObj.getID, f4])
    hv (by rw [f1]; exact hlne) z hz huz m clk P
  obtain ⟨m2, u2, e3, e4, hrev⟩ := C116_clients_revoke_partial rfl H' W w hw huw r hf' (by simp only [GossipObj.getID, hrt])
    (by rw [verify_congr (hkeys w hw)]; exact hrv) hrs z hz huz m clk P'
  cases e1.symm.trans e3
  cases e2.symm.trans e4
  refine ⟨m1, u1, e1, e2, fun cc st st' hcc hnone hup hpom => ?_⟩
  obtain ⟨dd, hd1, hd2⟩ := hrec cc st st' hcc hup
  simp only [hr0] at hrev
  obtain ⟨hvec, hgone⟩ := hrev cc st st' hcc hnone hup
  have hsv := hkeys z hz
  refine ⟨fun hnot => hacc cc st' _ (by rw [hcc.signScheme, hsv.signScheme]; exact hcs)
    (by rw [hcc.signPublicMap, hsv.signPublicMap]; exact hck) ?_ hpom ?_ hvec hnot, hgone⟩
  · intro g' hg'
    rw [verify_congr hcc, verify_congr hsv, hg']
    exact fun h => by cases h
  · rw [← hclk]
    have : (treeInfo X g).map (·.rootHash) = some dd.rootHash := by
      show (X.decSTH (hexPrefix g.payload.p1)).map _ = _
      rw [hd1]; rfl
    rw [this, ← hd2, f2]

end CTng
