import Verif.Model.Delivery
import Verif.Props.Logger
import Verif.Props.Pipeline
import Verif.Props.ClientExamples
/- Posts that fail: C120, and C86 for a lost tree head. -/
set_option autoImplicit false

namespace CTng
variable {L : Lib} (X : XLib) (c : LoggerConf L)

theorem sendPOIsVia_iff (up : Reach) (sha : Str → Str) (pool : CertPool) (root : Str) (pois : List POI)
    (sent : List (Str × POI)) :
    sendPOIsVia up sha pool root pois = some sent ↔
      sendPOIs sha pool root pois = some sent ∧ ∀ x ∈ sent, up x.1 = true := by
  induction pois generalizing sent with
  | nil =>
    simp only [sendPOIsVia, sendPOIs, Option.some.injEq]
    constructor
    · rintro rfl; exact ⟨rfl, by simp⟩
    · exact fun h => h.1
  | cons p t ih =>
    unfold sendPOIsVia sendPOIs
    by_cases hk : p.subjectKeyId.length ≠ 0
    · rw [if_pos hk, if_pos hk]
      cases hg : pool.getBySKI p.subjectKeyId with
      | panic => simp
      | ok o =>
        cases o with
        | none => simp
        | some cert =>
          simp only
          cases hv : verifyPOI sha root p.poi cert with
          | false =>
            simp only [Bool.false_eq_true, if_false, Option.some.injEq]
            constructor
            · rintro rfl; exact ⟨rfl, by simp⟩
            · exact fun h => h.1
          | true =>
            simp only [if_true]
            cases hu : up p.issuer with
            | false =>
              simp only [Bool.false_eq_true, if_false, reduceCtorEq, false_iff, not_and]
              intro h hall
              obtain ⟨l, _, rfl⟩ := Option.map_eq_some_iff.1 h
              have := hall (p.issuer, p) (by simp)
              rw [hu] at this
              cases this
            | true =>
              simp only [if_true]
              constructor
              · intro h
                obtain ⟨l, hl, rfl⟩ := Option.map_eq_some_iff.1 h
                obtain ⟨h1, h2⟩ := (ih l).1 hl
                refine ⟨by rw [h1]; rfl, ?_⟩
                intro x hx
                rcases List.mem_cons.1 hx with rfl | hx
                · exact hu
                · exact h2 x hx
              · rintro ⟨h, hall⟩
                obtain ⟨l, hl, rfl⟩ := Option.map_eq_some_iff.1 h
                rw [(ih l).2 ⟨hl, fun x hx => hall x (List.mem_cons_of_mem _ hx)⟩]
                rfl
    · rw [if_neg hk, if_neg hk]; exact ih sent

/-- Proofs go to issuers of certificates in the pool. -/
theorem sendPOIs_targets (sha : Str → Str) (pool : CertPool) (root : Str) (pois : List POI) (sent : List (Str × POI))
    (h : sendPOIs sha pool root pois = some sent) : ∀ x ∈ sent, x.2 ∈ pois ∧ x.1 = x.2.issuer := by
  induction pois generalizing sent with
  | nil => cases h; simp
  | cons p t ih =>
    unfold sendPOIs at h
    split at h
    · split at h
      · split at h
        · obtain ⟨l, hl, rfl⟩ := Option.map_eq_some_iff.1 h
          intro x hx
          rcases List.mem_cons.1 hx with rfl | hx
          · exact ⟨by simp, rfl⟩
          · exact ⟨List.mem_cons_of_mem _ (ih l hl x hx).1, (ih l hl x hx).2⟩
        · cases h; simp
      · cases h
    · intro x hx
      exact ⟨List.mem_cons_of_mem _ (ih sent h x hx).1, (ih sent h x hx).2⟩

/-- The relation of the two rounds. -/
theorem loggerRoundVia_iff (up : Reach) (t : Instant) (s s' : LoggerState) :
    loggerRoundVia X c up t s = some s' ↔ ∃ s1 sent b, loggerRound X c t s = some s1 ∧
      buildMerkle X c t s.pool.getCerts (loggerNextNum t) = some b ∧
      sendPOIs L.sha256 s.pool b.root b.pois = some sent ∧ s1.sentPOIs = s.sentPOIs ++ sent ∧
      (∀ x ∈ sent, up x.1 = true) ∧
      s' = { s1 with sentSTHs := s.sentSTHs ++ (c.allCAs.filter up).map fun ca => (ca, b.sth) } := by
  unfold loggerRoundVia loggerRound
  cases hb : buildMerkle X c t s.pool.getCerts (loggerNextNum t) with
  | none => simp [hb]
  | some b =>
    cases hc : s.pool.getCerts with
    | nil =>
      rw [hc] at hb
      simp [hb]
    | cons c0 r =>
      rw [hc] at hb
      simp only [hb]
      cases hf : buildMerkle X c t (c0 :: r ++ [c0]) (loggerNextNum t) with
      | none => simp
      | some f =>
        simp only
        constructor
        · intro h
          cases hv : sendPOIsVia up L.sha256 s.pool b.root b.pois with
          | none => rw [hv] at h; cases h
          | some sent =>
            rw [hv] at h
            simp only [Option.some.injEq] at h
            obtain ⟨h1, h2⟩ := (sendPOIsVia_iff up _ _ _ _ _).1 hv
            rw [h1]
            exact ⟨_, sent, b, rfl, rfl, h1, rfl, h2, h.symm⟩
        · rintro ⟨s1, sent, b', h1, hb', h2, h3, h4, h5⟩
          cases hb'
          rw [h2] at h1
          simp only [Option.some.injEq] at h1
          rw [(sendPOIsVia_iff up _ _ _ _ _).2 ⟨h2, h4⟩, h5, ← h1]
          rfl

theorem loggerRoundVia_all (up : Reach) (hu : ∀ a, up a = true) (t : Instant) (s : LoggerState) :
    loggerRoundVia X c up t s = loggerRound X c t s := by
  have hs : ∀ pool root pois, sendPOIsVia up L.sha256 pool root pois = sendPOIs L.sha256 pool root pois := by
    intro pool root pois
    cases h : sendPOIs L.sha256 pool root pois with
    | none =>
      cases h2 : sendPOIsVia up L.sha256 pool root pois with
      | none => rfl
      | some x => rw [((sendPOIsVia_iff up _ _ _ _ _).1 h2).1] at h; cases h
    | some x => exact (sendPOIsVia_iff up _ _ _ _ _).2 ⟨h, fun _ _ => hu _⟩
  unfold loggerRoundVia loggerRound sendSTHsVia
  simp only [hs, List.filter_eq_self.2 (fun a _ => hu a)]
  rfl

/-- C120, the model of C64, C75 and C103 is this one when every post succeeds: all they say holds here too. -/
theorem C120_reliable_network_partial (evs : List LoggerEvent) (s : LoggerState) (up : Reach) (hu : ∀ a, up a = true) :
    loggerRunVia X c s (evs.map fun e => (e, up)) = loggerRun X c s evs := by
  induction evs generalizing s with
  | nil => rfl
  | cons e r ih =>
    have h1 : loggerStepVia X c s (e, up) = loggerStep X c s e := by
      cases e with
      | precert b => rfl
      | finish t => exact loggerRoundVia_all X c up hu t s
      | request t => rfl
    simp only [List.map_cons, loggerRunVia, loggerRun, h1]
    cases loggerStep X c s e with
    | none => rfl
    | some s1 => exact ih s1

theorem loggerStepVia_pool {s s' : LoggerState} {e : LoggerEvent × Reach} (hp : PoolRep s.pool)
    (h : loggerStepVia X c s e = some s') : PoolRep s'.pool := by
  obtain ⟨e, up⟩ := e
  cases e with
  | precert b => exact loggerRun_pool X c [.precert b] hp (by simp only [loggerRun, loggerStep]; rw [show loggerReceive X b s = some s' from h])
  | finish t =>
    obtain ⟨s1, _, _, h1, _, _, _, _, rfl⟩ := (loggerRoundVia_iff X c up t s s').1 h
    exact loggerRun_pool X c [.finish t] hp (s' := s1) (by simp only [loggerRun, loggerStep]; rw [h1])
  | request t => simp only [loggerStepVia, requestSTH, Option.some.injEq] at h; subst h; exact hp

theorem loggerRunVia_pool (evs : List (LoggerEvent × Reach)) {s s' : LoggerState} (hp : PoolRep s.pool)
    (h : loggerRunVia X c s evs = some s') : PoolRep s'.pool := by
  induction evs generalizing s with
  | nil => simp only [loggerRunVia, Option.some.injEq] at h; exact h ▸ hp
  | cons e t ih =>
    simp only [loggerRunVia] at h
    split at h
    · cases h
    rename_i s1 h1
    exact ih (loggerStepVia_pool X c hp h1) h

/-- What is posted when no two certificates share a key id: a proof for each. -/
theorem sendPOIs_distinct (t : Instant) (s : LoggerState) (hp : PoolRep s.pool) (h2 : 2 ≤ s.pool.getCerts.length)
    (hne : ∀ x ∈ s.pool.getCerts, x.subjectKeyId ≠ [])
    (hinj : ∀ x ∈ s.pool.getCerts, ∀ y ∈ s.pool.getCerts, x.subjectKeyId = y.subjectKeyId → x = y)
    (b : Built) (hb : buildMerkle X c t s.pool.getCerts (loggerNextNum t) = some b) :
    ∃ sent, sendPOIs L.sha256 s.pool b.root b.pois = some sent ∧ sent.map (·.1) = s.pool.getCerts.map (·.issuerCN) := by
  obtain ⟨tree, ht, b', hb', hroot, hpois⟩ := buildMerkle_some X c t s.pool.getCerts (loggerNextNum t) h2
  rw [hb] at hb'
  cases hb'
  obtain ⟨tree', ht', _, hv⟩ := C61_proofs_complete L.sha256 (s.pool.getCerts.map Cert.block) (by simpa using h2)
  rw [ht] at ht'
  cases ht'
  refine ⟨b.pois.map fun p => (p.issuer, p), ?_, ?_⟩
  · apply sendPOIs_all
    intro p hpm
    rw [hpois] at hpm
    obtain ⟨⟨x, i⟩, hx, rfl⟩ := List.mem_map.1 hpm
    have hxi : s.pool.getCerts[i]? = some x := by
      have := List.mem_zipIdx' hx
      rw [List.getElem?_eq_some_iff]
      exact ⟨this.1, this.2.symm⟩
    have hxm : x ∈ s.pool.getCerts := List.mem_of_getElem? hxi
    obtain ⟨y, hy, hym, hyk⟩ := poolRep_lookup hp hxm (hne x hxm)
    have : y = x := hinj y hym x hxm hyk
    subst this
    refine ⟨hne y hxm, y, hy, ?_⟩
    rw [verifyPOI, hroot]
    exact hv i _ (by rw [List.getElem?_map, hxi]; rfl)
  · rw [hpois, List.map_map, List.map_map]
    apply List.ext_getElem?
    intro i
    rw [List.getElem?_map, List.getElem?_map, List.getElem?_zipIdx]
    cases s.pool.getCerts[i]? <;> rfl

/-- C120, what a round needs: after any history over any network, with at least two certificates in the pool, no two of
them with one key id and none without, the end of a period succeeds exactly when the issuer of every logged certificate
answers. Missing for the full property: unreachable issuers. -/
theorem C120_issuers_answer_partial (evs : List (LoggerEvent × Reach)) (s : LoggerState)
    (h : loggerRunVia X c initLogger evs = some s) (h2 : 2 ≤ s.pool.getCerts.length)
    (hne : ∀ x ∈ s.pool.getCerts, x.subjectKeyId ≠ [])
    (hinj : ∀ x ∈ s.pool.getCerts, ∀ y ∈ s.pool.getCerts, x.subjectKeyId = y.subjectKeyId → x = y)
    (t : Instant) (up : Reach) :
    (∃ s', loggerStepVia X c s (.finish t, up) = some s') ↔ ∀ x ∈ s.pool.getCerts, up x.issuerCN = true := by
  have hp := loggerRunVia_pool X c evs poolRep_new h
  obtain ⟨s1, hs1⟩ := (loggerRound_iff X c t s hp).2 h2
  obtain ⟨_, _, b, hb, _, _⟩ := buildMerkle_some X c t s.pool.getCerts (loggerNextNum t) h2
  obtain ⟨sent, hsent, hissuers⟩ := sendPOIs_distinct X c t s hp h2 hne hinj b hb
  constructor
  · rintro ⟨s', h'⟩ x hx
    obtain ⟨_, sent', b', _, hb', hs', _, hall, _⟩ := (loggerRoundVia_iff X c up t s s').1 h'
    rw [hb] at hb'
    cases hb'
    rw [hsent] at hs'
    cases hs'
    have : x.issuerCN ∈ sent.map (·.1) := by rw [hissuers]; exact List.mem_map_of_mem hx
    obtain ⟨y, hy, he⟩ := List.mem_map.1 this
    rw [← he]
    exact hall y hy
  · intro hall
    refine ⟨_, (loggerRoundVia_iff X c up t s _).2 ⟨s1, sent, b, hs1, hb, hsent, ?_, ?_, rfl⟩⟩
    · obtain ⟨b', _, sent', hb', hs', rfl⟩ := loggerRound_some X c hs1
      rw [loggerNextNum_eq] at hb
      rw [hb] at hb'
      cases hb'
      rw [hsent] at hs'
      cases hs'
      rfl
    · intro x hx
      have : x.1 ∈ s.pool.getCerts.map (·.issuerCN) := by rw [← hissuers]; exact List.mem_map_of_mem hx
      obtain ⟨y, hy, he⟩ := List.mem_map.1 this
      rw [← he]
      exact hall y hy

/-- C120, tree heads: whatever the network does and whatever the pool holds, a round that succeeds has brought its one tree
head to exactly the CAs of the list that answer, in the order of the list; the others are skipped. And when all issuers
answer it does succeed. Missing for the full property: rounds with an unreachable issuer. -/
theorem C120_tree_heads_partial (evs : List (LoggerEvent × Reach)) (s : LoggerState)
    (h : loggerRunVia X c initLogger evs = some s) (t : Instant) (up : Reach) :
    (2 ≤ s.pool.getCerts.length → (∀ x ∈ s.pool.getCerts, up x.issuerCN = true) →
      ∃ s', loggerStepVia X c s (.finish t, up) = some s') ∧
    ∀ s', loggerStepVia X c s (.finish t, up) = some s' →
      ∃ g, s'.sthStorage.get (padInt 2 (t.minute + 1)) = some g ∧
        s'.sentSTHs = s.sentSTHs ++ (c.allCAs.filter up).map fun ca => (ca, g) := by
  have hp := loggerRunVia_pool X c evs poolRep_new h
  constructor
  · intro h2 hall
    obtain ⟨s1, hs1⟩ := (loggerRound_iff X c t s hp).2 h2
    obtain ⟨b, f, sent, hb, hs, he⟩ := loggerRound_some X c hs1
    refine ⟨_, (loggerRoundVia_iff X c up t s _).2 ⟨s1, sent, b, hs1, by rw [loggerNextNum_eq]; exact hb, hs, by rw [he], ?_, rfl⟩⟩
    intro x hx
    obtain ⟨h3, h4⟩ := sendPOIs_targets _ _ _ _ _ hs x hx
    obtain ⟨_, _, b', hb', _, hpois⟩ := buildMerkle_some X c t s.pool.getCerts (t.minute + 1) h2
    rw [hb] at hb'
    cases hb'
    rw [hpois] at h3
    obtain ⟨⟨y, i⟩, hy, he'⟩ := List.mem_map.1 h3
    rw [h4, ← he']
    exact hall y ((List.mem_zipIdx' hy).2 ▸ List.getElem_mem _)
  · intro s' h'
    obtain ⟨s1, sent, b, h1, hb, _, _, _, rfl⟩ := (loggerRoundVia_iff X c up t s s').1 h'
    obtain ⟨b', _, _, hb', _, rfl⟩ := loggerRound_some X c h1
    rw [loggerNextNum_eq] at hb
    rw [hb] at hb'
    cases hb'
    exact ⟨b.sth, GoMap.get_set_self _ _ _, rfl⟩

/-- A certificate whose subject is not in the pool is added to it. -/
theorem poolRep_add_new {s : CertPool} (h : PoolRep s) (x : Cert) (hx : ∀ y ∈ s.certs, y.rawSubject ≠ x.rawSubject) :
    ∃ s', s.addCert x = .ok s' ∧ s'.certs = s.certs ++ [x] := by
  obtain ⟨l, hl, hk⟩ := h
  obtain ⟨s', h1, h2⟩ := poolOp_spec hl (.add x)
  refine ⟨s', h1, ?_⟩
  have hno : l.any (fun e => decide (e.name = x.rawSubject) && decide (e.cert.raw = x.raw)) = false := by
    rw [List.any_eq_false]
    intro e he
    have := hx e.cert (by rw [hl.certs]; exact List.mem_map_of_mem he)
    simp [(hk e he).2, this]
  rw [h2.certs]
  simp only [specOp, hno, Bool.false_eq_true, if_false, List.map_append, List.map_cons, List.map_nil, hl.certs]

/-- C120 is false: in every reachable state of every logger in which at least one certificate is pooled and key ids are
distinct, one certificate from anyone, signed by nobody, with a fresh subject and key id, is pooled if its issuer's name is
an address that does not answer, and then the end of the period ends the logger: no tree head, whatever else is in the pool
and however well all CAs can be reached. -/
theorem C120_violated_unreachable_issuer (evs : List (LoggerEvent × Reach)) (s : LoggerState)
    (h : loggerRunVia X c initLogger evs = some s) (h1 : 1 ≤ s.pool.getCerts.length)
    (hne : ∀ x ∈ s.pool.getCerts, x.subjectKeyId ≠ [])
    (hinj : ∀ x ∈ s.pool.getCerts, ∀ y ∈ s.pool.getCerts, x.subjectKeyId = y.subjectKeyId → x = y)
    (body : Str) (cert : Cert) (hb : X.parseCert body = some cert) (hk : cert.subjectKeyId ≠ [])
    (hkn : ∀ x ∈ s.pool.getCerts, x.subjectKeyId ≠ cert.subjectKeyId)
    (hsn : ∀ x ∈ s.pool.getCerts, x.rawSubject ≠ cert.rawSubject)
    (t : Instant) (now up : Reach) (hup : up cert.issuerCN = false) :
    ∃ s1, loggerStepVia X c s (.precert body, now) = some s1 ∧ s1.pool.getCerts = s.pool.getCerts ++ [cert.parseTBS] ∧
      loggerStepVia X c s1 (.finish t, up) = none := by
  have hp := loggerRunVia_pool X c evs poolRep_new h
  obtain ⟨p', ha, hc⟩ := poolRep_add_new hp cert.parseTBS (fun y hy => hsn y hy)
  have hstep : loggerStepVia X c s (.precert body, now) = some { s with pool := p' } := by
    simp only [loggerStepVia, loggerReceive, hb, ha]
  refine ⟨{ s with pool := p' }, hstep, hc, ?_⟩
  have hrun : loggerRunVia X c initLogger (evs ++ [(.precert body, now)]) = some { s with pool := p' } := by
    have key : ∀ (l : List (LoggerEvent × Reach)) (a : LoggerState), loggerRunVia X c a l = some s →
        loggerRunVia X c a (l ++ [(.precert body, now)]) = some { s with pool := p' } := by
      intro l
      induction l with
      | nil =>
        intro a ha
        simp only [loggerRunVia, Option.some.injEq] at ha
        subst ha
        simp only [List.nil_append, loggerRunVia, hstep]
      | cons e r ih =>
        intro a ha
        simp only [loggerRunVia, List.cons_append] at ha ⊢
        split at ha
        · cases ha
        · rename_i a1 h1
          exact ih a1 ha
    exact key evs _ h
  have hmem : ∀ x, x ∈ CertPool.getCerts p' ↔ x ∈ s.pool.getCerts ∨ x = cert.parseTBS := by
    intro x
    show x ∈ p'.certs ↔ _
    rw [hc]
    simp [CertPool.getCerts]
  have hiff := C120_issuers_answer_partial X c _ _ hrun
    (by show 2 ≤ p'.certs.length; rw [hc, List.length_append]; exact Nat.succ_le_succ h1)
    (by
      intro x hx
      rcases (hmem x).1 hx with hx | rfl
      · exact hne x hx
      · exact hk)
    (by
      intro x hx y hy he
      rcases (hmem x).1 hx with hx | rfl
      · rcases (hmem y).1 hy with hy | rfl
        · exact hinj x hx y hy he
        · exact absurd he (hkn x hx)
      · rcases (hmem y).1 hy with hy | rfl
        · exact absurd he.symm (hkn y hy)
        · rfl) t up
  cases hr : loggerStepVia X c { s with pool := p' } (.finish t, up) with
  | none => rfl
  | some s' =>
    have := hiff.1 ⟨s', hr⟩ cert.parseTBS ((hmem _).2 (.inr rfl))
    rw [show cert.parseTBS.issuerCN = cert.issuerCN from rfl, hup] at this
    cases this

/-! ### C86: a tree head that did not arrive -/

/-- C86 is false when a tree head is lost: if the CA holds no tree head of a logger when the logger's proof `p` arrives (the
POST of the tree head failed, which the logger only prints), the CA embeds `p` under the zero object, keeps it whatever
arrives later, and after signing no client counts that entry. -/
theorem C86_violated_lost_tree_head (ca : CAConf L) (root : Cert) (hX : X.Laws) (s : CAState) (hr : Rep s.pool)
    (hp : ∀ k g, s.sthStorage.get k = some g → g.Plain) (k : Str) (x : Cert) (hk : s.pool.getBySKI k = .ok (some x))
    (hx : GoodExt X x) (p : POI) (hq : p.Plain) (hpk : p.subjectKeyId = k) (hlost : s.sthStorage.get p.loggerID = none)
    (hnone : ∀ i ∈ (x.parseExt X).loggers, i.sth.signer ≠ []) (more : List CAEvent) (hm : ∀ e ∈ more, Between e)
    (s' : CAState) (hs : caRun X ca root s (.poi p :: more) = some s') :
    ∃ x', s'.pool.getBySKI k = .ok (some x') ∧ ⟨GossipObj.zero, p⟩ ∈ (x'.parseExt X).loggers ∧
      ∀ (sha : Str → Str) (cc : CryptoConfig L) (cs : ClientState), x'.rawSubject ≠ [] → x'.subjectKeyId ≠ [] →
        let f := signCertificate X sha (x'.forSigning X) root x'.publicKey
        ⟨GossipObj.zero, p⟩ ∈ (f.parseExt X).loggers ∧ ¬ GoodEntry X cc cs f ⟨GossipObj.zero, p⟩ := by
  simp only [caRun, caStep] at hs
  obtain ⟨r1, r2, _, _, _, _⟩ := keeps_step ca root hX (.poi p) hq rfl hr hp hk hx
  have hlook := (poi_rep (X := X) hr p).2 k x hk
  have hread : readObj s.sthStorage p.loggerID = GossipObj.zero := by unfold readObj; rw [hlost]; rfl
  rw [if_pos hpk, hread] at hlook
  have hn : (⟨GossipObj.zero, p⟩ : LoggerInfo).Plain := ⟨zero_plain, hq⟩
  have hin : (⟨GossipObj.zero, p⟩ : LoggerInfo) ∈ ((x.updateExt X ⟨GossipObj.zero, p⟩).parseExt X).loggers := by
    rw [updateExt_parse hX hx.1 hx.2.1 hn]
    simp only [mergeInfo]
    split
    · rename_i h
      obtain ⟨i, hi, hsi⟩ := List.mem_map.1 h
      exact absurd hsi (hnone i hi)
    · simp
  obtain ⟨x', h1, h2, h3⟩ := keeps_run ca root hX more hm hs r1 r2 hlook (goodExt_update hX hx hn)
  refine ⟨x', h1, h3 _ hin, ?_⟩
  intro sha cc cs hsub hski f
  obtain ⟨k1, _, _, _⟩ := sign_keeps root hX sha x' h2 hsub hski
  refine ⟨by show _ ∈ (f.parseExt X).loggers; rw [k1]; exact h3 _ hin, fun hg => ?_⟩
  have := hg.verifies
  revert this
  show GossipObj.zero.verify cc = .ok → False
  intro hv
  cases hv

/-! ### Concrete cases -/

namespace Ref

/-- Only the addresses C1 and C2 answer. -/
def casUp : Reach := fun a => a == go!"C1" || a == go!"C2"

/-- Three CAs on the list, one of which does not answer. -/
def logConf3 : LoggerConf lib := { logConf with allCAs := [go!"C2", go!"C3", go!"C1"] }

/-- C120: with the certificates of C1 the round succeeds and the tree head goes to C2 and C1; after a certificate of "Evil",
which does not answer, it does not. -/
example :
    ((loggerRunVia xlib logConf3 initLogger [(.precert leafA.raw, casUp), (.precert leafB.raw, casUp), (.finish at58, casUp)]).map
      fun s => (s.sentSTHs.map (·.1), s.sentPOIs.map (·.1))) = some ([go!"C2", go!"C1"], [go!"C1", go!"C1"]) ∧
    (loggerRunVia xlib logConf3 initLogger [(.precert leafA.raw, casUp), (.precert leafB.raw, casUp), (.precert leafE.raw, casUp),
      (.finish at58, casUp)]).isNone = true ∧
    (loggerRunVia xlib logConf3 initLogger [(.precert leafA.raw, casUp), (.precert leafB.raw, casUp), (.precert leafE.raw, casUp),
      (.finish at58, fun _ => true)]).isSome = true := by decide +kernel

/-- The hypotheses of `C120_violated_unreachable_issuer`. -/
example : xlib.parseCert leafE.raw = some leafE ∧ casUp leafE.issuerCN = false ∧ leafE.subjectKeyId ≠ [] ∧
    ((loggerRunVia xlib logConf3 initLogger [(.precert leafA.raw, casUp), (.precert leafB.raw, casUp)]).map fun s =>
      (s.pool.getCerts.length, s.pool.getCerts.all fun x => x.subjectKeyId != leafE.subjectKeyId && x.rawSubject != leafE.rawSubject &&
        x.subjectKeyId != [] && s.pool.getCerts.all fun y => x.subjectKeyId != y.subjectKeyId || x.rawSubject == y.rawSubject)) =
    some (2, true) := by
  refine ⟨xlaws.createParse _ _ _, by decide +kernel, by decide +kernel, by decide +kernel⟩

/-- C86: L1's proofs arrive, its tree head was lost (and arrives after them): the entries have no tree head and the client
rejects both certificates. -/
example : ((logRound at34).bind fun x => (revRound at34).bind fun r =>
    let z := Client.handleUpdate xlib m1 true (update35 x.1 r) initClient
    (caRun xlib caConf caRoot caInit (.start (leafKey 0) :: x.2.map .poi ++ [.sth x.1])).map fun s =>
      (signAll xlib lib.sha256 caRoot s).map fun f =>
        ((f.parseExt xlib).loggers.map (fun i => (i.sth == GossipObj.zero, i.poi.loggerID)), Client.verifyCTngExt xlib m1 z.2 f)) =
    some [([(true, go!"L1")], .reject), ([(true, go!"L1")], .reject)] := by decide +kernel

end Ref

end CTng
