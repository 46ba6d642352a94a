import Verif.Model.LoggerConc
import Verif.Props.Delivery
/- The end of a period at a logger beside requests: C125, C126. -/
set_option autoImplicit false

namespace CTng
variable {L : Lib} (X : XLib) (c : LoggerConf L)

/-! ### A pool that has grown -/

/-- `q` is `p` with certificates added: everything found in `p` is found in `q`. -/
def PoolExt (p q : CertPool) : Prop :=
  (∃ more, q.certs = p.certs ++ more) ∧ ∀ k x, p.getBySKI k = .ok (some x) → q.getBySKI k = .ok (some x)

theorem poolExt_refl (p : CertPool) : PoolExt p p := ⟨⟨[], by simp⟩, fun _ _ h => h⟩

theorem poolExt_trans {p q r : CertPool} (h : PoolExt p q) (h' : PoolExt q r) : PoolExt p r := by
  obtain ⟨⟨a, ha⟩, h1⟩ := h
  obtain ⟨⟨b, hb⟩, h2⟩ := h'
  exact ⟨⟨a ++ b, by rw [hb, ha, List.append_assoc]⟩, fun k x hk => h2 k x (h1 k x hk)⟩

theorem poolExt_add {p q : CertPool} {x : Cert} (h : p.addCert x = .ok q) : PoolExt p q := by
  unfold CertPool.addCert at h
  cases hc : p.contains x with
  | panic => rw [hc] at h; cases h
  | ok b =>
    rw [hc] at h
    cases b with
    | true => cases h; exact poolExt_refl p
    | false =>
      simp only [CertPool.Res.ok.injEq] at h
      subst h
      refine ⟨⟨[x], rfl⟩, ?_⟩
      intro k y hk
      unfold CertPool.getBySKI at hk
      cases hi : CertPool.idx p.bySubjectKeyId k with
      | nil => rw [hi] at hk; cases hk
      | cons i r =>
        rw [hi] at hk
        simp only at hk
        cases hy : p.certs[i]? with
        | none => rw [hy] at hk; cases hk
        | some z =>
          rw [hy] at hk
          cases hk
          have hy' : (p.certs ++ [x])[i]? = some y := by
            rw [List.getElem?_append_left (List.getElem?_eq_some_iff.1 hy).1]; exact hy
          unfold CertPool.getBySKI
          simp only
          by_cases hl : x.subjectKeyId.length > 0
          · simp only [if_pos hl]
            by_cases hkx : k = x.subjectKeyId
            · subst hkx
              have : CertPool.idx (p.bySubjectKeyId.set x.subjectKeyId (CertPool.idx p.bySubjectKeyId x.subjectKeyId ++ [p.certs.length]))
                  x.subjectKeyId = i :: (r ++ [p.certs.length]) := by
                rw [CertPool.idx, GoMap.get_set_self, hi]; rfl
              rw [this]
              simp only [hy']
            · have : CertPool.idx (p.bySubjectKeyId.set x.subjectKeyId (CertPool.idx p.bySubjectKeyId x.subjectKeyId ++ [p.certs.length]))
                  k = i :: r := by
                rw [CertPool.idx, GoMap.get_set_ne _ _ hkx]; exact hi
              rw [this]
              simp only [hy']
          · simp only [if_neg hl, hi, hy']

/-! ### Reachable states -/

/-- A state some schedule leads to. -/
def LogReach (m : LogConc) : Prop := ∃ h, m = logConcRun X c LogConc.init h

theorem logConcRun_append (m : LogConc) (h h' : List LogConcEvent) :
    logConcRun X c m (h ++ h') = logConcRun X c (logConcRun X c m h) h' := List.foldl_append

theorem logConcRun_cons (m : LogConc) (e : LogConcEvent) (h : List LogConcEvent) :
    logConcRun X c m (e :: h) = logConcRun X c (logConcStep X c m e) h := rfl

theorem logConcRun_dead (m : LogConc) (hd : m.dead = true) (h : List LogConcEvent) : logConcRun X c m h = m := by
  induction h generalizing m with
  | nil => rfl
  | cons e r ih =>
    have : logConcStep X c m e = m := by unfold logConcStep; rw [if_pos hd]
    rw [logConcRun_cons, this, ih m hd]

/-- What a step of an end of period does to the pool. -/
theorem roundStep_pool {t : Instant} {up : Reach} {s s' : LoggerState} {r r' : RoundAt} {new : List (List Cert × GossipObj)}
    (h : roundStep X c t up s r = some (s', new, r')) : s'.pool = s.pool ∨ s'.pool = CertPool.new := by
  cases r with
  | list =>
    simp only [roundStep] at h
    split at h
    · cases h
    · cases h; exact Or.inl rfl
  | fake t0 certs b =>
    simp only [roundStep] at h
    split at h
    · cases h
    · split at h
      · cases h
      · cases h; exact Or.inl rfl
  | store t0 certs b f => cases h; exact Or.inl rfl
  | sths b todo =>
    cases todo with
    | nil => cases h; exact Or.inl rfl
    | cons a r =>
      simp only [roundStep, Option.some.injEq, Prod.mk.injEq] at h
      obtain ⟨rfl, _, _⟩ := h
      split <;> exact Or.inl rfl
  | pois b todo =>
    cases todo with
    | nil => cases h; exact Or.inl rfl
    | cons p r =>
      simp only [roundStep] at h
      split at h
      · split at h
        · split at h
          · split at h
            · cases h; exact Or.inl rfl
            · cases h
          · cases h; exact Or.inl rfl
        · cases h
      · cases h; exact Or.inl rfl
  | count => cases h; exact Or.inl rfl
  | reset => cases h; exact Or.inr rfl
  | done => cases h; exact Or.inl rfl

theorem loggerReceive_pool {body : Str} {s s' : LoggerState} (h : loggerReceive X body s = some s') :
    ∃ cert, X.parseCert body = some cert ∧ s.pool.addCert cert.parseTBS = .ok s'.pool ∧ s' = { s with pool := s'.pool } := by
  unfold loggerReceive at h
  split at h
  · cases h
  · rename_i cert hc
    split at h
    · rename_i p hp
      cases h
      exact ⟨cert, hc, hp, rfl⟩
    · cases h

theorem logConcStep_pool {m : LogConc} (e : LogConcEvent) (hp : PoolRep m.s.pool) : PoolRep (logConcStep X c m e).s.pool := by
  unfold logConcStep
  cases hd : m.dead with
  | true => simpa using hp
  | false =>
    simp only [Bool.false_eq_true, if_false]
    cases e with
    | precert b =>
      simp only
      split
      · exact hp
      · rename_i s hs
        obtain ⟨cert, _, ha, _⟩ := loggerReceive_pool X hs
        obtain ⟨p', h1, h2⟩ := poolRep_add hp cert.parseTBS
        rw [h1] at ha
        cases ha
        exact h2
    | request t => exact hp
    | timer => exact hp
    | run i t up =>
      simp only
      split
      · exact hp
      · split
        · exact hp
        · rename_i hs
          rcases roundStep_pool X c hs with h | h
          · simp only; rw [h]; exact hp
          · simp only; rw [h]; exact poolRep_new

theorem logConcRun_pool (h : List LogConcEvent) {m : LogConc} (hp : PoolRep m.s.pool) : PoolRep (logConcRun X c m h).s.pool := by
  induction h generalizing m with
  | nil => exact hp
  | cons e r ih => exact ih (logConcStep_pool X c e hp)

theorem logReach_pool {m : LogConc} (h : LogReach X c m) : PoolRep m.s.pool := by
  obtain ⟨h, rfl⟩ := h
  exact logConcRun_pool X c h poolRep_new

/-! ### One end of period beside requests -/

/-- Requests and steps of the goroutine `i`, with the same addresses answering all the time; no other end of period. -/
def Beside (i : Nat) (up : Reach) : LogConcEvent → Prop
  | .precert _ | .request _ => True
  | .timer => False
  | .run j _ u => j = i ∧ u = up

/-- The round has got as far as `r` with the state `s` and the list of trees `tr`, having begun at `t` in the state `s0` with
the list `tr0`. -/
def Midway (up : Reach) (t : Instant) (s0 : LoggerState) (tr0 : List (List Cert × GossipObj)) (b : Built) (s : LoggerState)
    (tr : List (List Cert × GossipObj)) : RoundAt → Prop
  | .list | .done => True
  | .fake t0 certs b' => b' = b ∧ t0 = t ∧ certs = s0.pool.getCerts ∧ PoolExt s0.pool s.pool ∧ s.sthStorage = s0.sthStorage ∧
      s.sentSTHs = s0.sentSTHs ∧ s.sentPOIs = s0.sentPOIs ∧ tr = tr0
  | .store t0 certs b' _ => b' = b ∧ t0 = t ∧ certs = s0.pool.getCerts ∧ PoolExt s0.pool s.pool ∧ s.sthStorage = s0.sthStorage ∧
      s.sentSTHs = s0.sentSTHs ∧ s.sentPOIs = s0.sentPOIs ∧ tr = tr0
  | .sths b' todo => b' = b ∧ PoolExt s0.pool s.pool ∧ s.sthStorage = s0.sthStorage.set (loggerNextPeriod t) b.sth ∧
      s.sentSTHs ++ sendSTHsVia up todo b.sth = s0.sentSTHs ++ sendSTHsVia up c.allCAs b.sth ∧
      s.sentPOIs = s0.sentPOIs ∧ tr = tr0 ++ [(s0.pool.getCerts, b.sth)]
  | .pois b' todo => b' = b ∧ PoolExt s0.pool s.pool ∧ s.sthStorage = s0.sthStorage.set (loggerNextPeriod t) b.sth ∧
      s.sentSTHs = s0.sentSTHs ++ sendSTHsVia up c.allCAs b.sth ∧
      (∀ p ∈ todo, p ∈ b.pois) ∧
      (sendPOIsVia up L.sha256 s0.pool b.root b.pois).map (s0.sentPOIs ++ ·) =
        (sendPOIsVia up L.sha256 s0.pool b.root todo).map (s.sentPOIs ++ ·) ∧ tr = tr0 ++ [(s0.pool.getCerts, b.sth)]
  | .count | .reset => PoolExt s0.pool s.pool ∧ s.sthStorage = s0.sthStorage.set (loggerNextPeriod t) b.sth ∧
      s.sentSTHs = s0.sentSTHs ++ sendSTHsVia up c.allCAs b.sth ∧
      (∃ sent, sendPOIsVia up L.sha256 s0.pool b.root b.pois = some sent ∧ s.sentPOIs = s0.sentPOIs ++ sent) ∧
      tr = tr0 ++ [(s0.pool.getCerts, b.sth)]

/-- Proofs concern certificates of the pool they were built from. -/
theorem buildMerkle_pois_mem {t : Instant} {certs : List Cert} {n : Nat} {b : Built} (hb : buildMerkle X c t certs n = some b) :
    2 ≤ certs.length ∧ ∀ p ∈ b.pois, ∃ x ∈ certs, p.subjectKeyId = x.subjectKeyId ∧ p.issuer = x.issuerCN := by
  have h2 : 2 ≤ certs.length := by
    apply Classical.byContradiction
    intro hn
    rw [buildMerkle_none X c t certs n (by omega)] at hb
    cases hb
  refine ⟨h2, ?_⟩
  obtain ⟨_, _, b', hb', _, hpois⟩ := buildMerkle_some X c t certs n h2
  rw [hb] at hb'
  cases hb'
  intro p hp
  rw [hpois] at hp
  obtain ⟨⟨x, i⟩, hx, rfl⟩ := List.mem_map.1 hp
  exact ⟨x, (List.mem_zipIdx' hx).2 ▸ List.getElem_mem _, rfl, rfl⟩

/-- A step of the round keeps `Midway`, whatever has been added to the pool meanwhile. -/
theorem midway_step {up : Reach} {t : Instant} {s0 : LoggerState} {tr0 : List (List Cert × GossipObj)} {b : Built}
    (hp : PoolRep s0.pool) (hb : buildMerkle X c t s0.pool.getCerts (loggerNextNum t) = some b)
    {s : LoggerState} {tr : List (List Cert × GossipObj)} {r : RoundAt} (hr : r ≠ .list)
    (h : Midway c up t s0 tr0 b s tr r) {t' : Instant} {s' : LoggerState} {new : List (List Cert × GossipObj)} {r' : RoundAt}
    (hs : roundStep X c t' up s r = some (s', new, r')) : Midway c up t s0 tr0 b s' (tr ++ new) r' ∧ r' ≠ .list := by
  cases r with
  | list => exact absurd rfl hr
  | fake t0 certs b' =>
    obtain ⟨rfl, rfl, rfl, h1, h2, h3, h4, rfl⟩ := h
    simp only [roundStep] at hs
    split at hs
    · cases hs
    · split at hs
      · cases hs
      · cases hs
        exact ⟨⟨rfl, rfl, rfl, h1, h2, h3, h4, by simp⟩, by simp⟩
  | store t0 certs b' f =>
    obtain ⟨rfl, rfl, rfl, h1, h2, h3, h4, rfl⟩ := h
    cases hs
    refine ⟨⟨rfl, h1, ?_, ?_, h4, rfl⟩, by simp⟩
    · simp only [h2]
    · simp only [h3]
  | sths b' todo =>
    obtain ⟨rfl, h1, h2, h3, h4, rfl⟩ := h
    cases todo with
    | nil =>
      cases hs
      refine ⟨⟨rfl, h1, h2, ?_, fun p hp => hp, by rw [h4], by simp⟩, by simp⟩
      simpa [sendSTHsVia] using h3
    | cons a todo =>
      simp only [roundStep, Option.some.injEq, Prod.mk.injEq] at hs
      obtain ⟨rfl, rfl, rfl⟩ := hs
      refine ⟨?_, by simp⟩
      cases hu : up a with
      | false =>
        simp only [Bool.false_eq_true, if_false]
        refine ⟨rfl, h1, h2, ?_, h4, by simp⟩
        simpa [sendSTHsVia, hu] using h3
      | true =>
        simp only [if_true]
        refine ⟨rfl, h1, h2, ?_, h4, by simp⟩
        simpa [sendSTHsVia, hu] using h3
  | pois b' todo =>
    obtain ⟨rfl, h1, h2, h3, hsub, h4, rfl⟩ := h
    cases todo with
    | nil =>
      cases hs
      refine ⟨⟨h1, h2, h3, ?_, by simp⟩, by simp⟩
      simp only [sendPOIsVia, Option.map_some, List.append_nil] at h4
      obtain ⟨sent, e1, e2⟩ := Option.map_eq_some_iff.1 h4
      exact ⟨sent, e1, e2.symm⟩
    | cons p todo =>
      simp only [roundStep] at hs
      generalize hfull : sendPOIsVia up L.sha256 s0.pool b'.root b'.pois = full at h4
      by_cases hk : p.subjectKeyId.length ≠ 0
      · rw [if_pos hk] at hs
        obtain ⟨x, hx, hkx, _⟩ := (buildMerkle_pois_mem X c hb).2 p (hsub p (by simp))
        obtain ⟨y, hy, _, _⟩ := poolRep_lookup hp hx (by rw [← hkx]; intro e; rw [e] at hk; exact hk rfl)
        rw [← hkx] at hy
        rw [h1.2 _ _ hy] at hs
        simp only at hs
        unfold sendPOIsVia at h4
        rw [if_pos hk, hy] at h4
        simp only at h4
        cases hv : verifyPOI L.sha256 b'.root p.poi y with
        | false =>
          rw [hv] at hs h4
          simp only [Bool.false_eq_true, if_false, Option.map_some, List.append_nil] at hs h4
          cases hs
          refine ⟨⟨h1, h2, h3, ?_, by simp⟩, by simp⟩
          obtain ⟨sent, e1, e2⟩ := Option.map_eq_some_iff.1 h4
          exact ⟨sent, hfull.trans e1, e2.symm⟩
        | true =>
          rw [hv] at hs h4
          simp only [if_true] at hs h4
          cases hu : up p.issuer with
          | false => rw [hu] at hs; simp at hs
          | true =>
            rw [hu] at hs h4
            simp only [if_true, Option.some.injEq, Prod.mk.injEq] at hs h4
            obtain ⟨rfl, rfl, rfl⟩ := hs
            refine ⟨⟨rfl, h1, h2, h3, fun q hq => hsub q (List.mem_cons_of_mem _ hq), ?_, by simp⟩, by simp⟩
            rw [hfull, h4, Option.map_map]
            congr 1
            funext l
            simp
      · rw [if_neg hk] at hs
        cases hs
        unfold sendPOIsVia at h4
        rw [if_neg hk] at h4
        exact ⟨⟨rfl, h1, h2, h3, fun q hq => hsub q (List.mem_cons_of_mem _ hq), by rw [hfull]; exact h4, by simp⟩, by simp⟩
  | count =>
    obtain ⟨h1, h2, h3, h4, rfl⟩ := h
    cases hs
    exact ⟨⟨h1, h2, h3, h4, by simp⟩, by simp⟩
  | reset => cases hs; exact ⟨trivial, by simp⟩
  | done => cases hs; exact ⟨trivial, by simp⟩

/-- A certificate that arrives keeps it too. -/
theorem midway_receive {up : Reach} {t : Instant} {s0 : LoggerState} {tr0 : List (List Cert × GossipObj)} {b : Built}
    {s : LoggerState} {tr : List (List Cert × GossipObj)} {r : RoundAt} (h : Midway c up t s0 tr0 b s tr r) {body : Str}
    {s' : LoggerState} (hs : loggerReceive X body s = some s') : Midway c up t s0 tr0 b s' tr r := by
  obtain ⟨cert, _, ha, he⟩ := loggerReceive_pool X hs
  have hx := poolExt_add ha
  rw [he]
  cases r with
  | list => trivial
  | fake t0 certs b' =>
    obtain ⟨h0, h0', h0'', h1, h2, h3, h4, h5⟩ := h
    exact ⟨h0, h0', h0'', poolExt_trans h1 hx, h2, h3, h4, h5⟩
  | store t0 certs b' f =>
    obtain ⟨h0, h0', h0'', h1, h2, h3, h4, h5⟩ := h
    exact ⟨h0, h0', h0'', poolExt_trans h1 hx, h2, h3, h4, h5⟩
  | sths b' todo =>
    obtain ⟨h0, h1, h2⟩ := h
    exact ⟨h0, poolExt_trans h1 hx, h2⟩
  | pois b' todo =>
    obtain ⟨h0, h1, h2⟩ := h
    exact ⟨h0, poolExt_trans h1 hx, h2⟩
  | count =>
    obtain ⟨h1, h2⟩ := h
    exact ⟨poolExt_trans h1 hx, h2⟩
  | reset =>
    obtain ⟨h1, h2⟩ := h
    exact ⟨poolExt_trans h1 hx, h2⟩
  | done => trivial

theorem midway_request {up : Reach} {t : Instant} {s0 : LoggerState} {tr0 : List (List Cert × GossipObj)} {b : Built}
    {s : LoggerState} {tr : List (List Cert × GossipObj)} {r : RoundAt} (h : Midway c up t s0 tr0 b s tr r) (t' : Instant) :
    Midway c up t s0 tr0 b (requestSTH c t' s).2 tr r := by
  cases r <;> exact h

theorem midway_ext {up : Reach} {t : Instant} {s0 : LoggerState} {tr0 : List (List Cert × GossipObj)} {b : Built}
    {s : LoggerState} {tr : List (List Cert × GossipObj)} {r : RoundAt} (hw : r.window = true)
    (h : Midway c up t s0 tr0 b s tr r) : PoolExt s0.pool s.pool := by
  cases r with
  | list => cases hw
  | fake t0 certs b' => exact h.2.2.2.1
  | store t0 certs b' f => exact h.2.2.2.1
  | sths b' todo => exact h.2.1
  | pois b' todo => exact h.2.1
  | count => exact h.1
  | reset => exact h.1
  | done => cases hw

/-- `Midway` of the goroutine `i` of a logger that is alive, or a logger that is not. -/
def UnderWay (i : Nat) (up : Reach) (t : Instant) (s0 : LoggerState) (tr0 : List (List Cert × GossipObj)) (b : Built)
    (m : LogConc) : Prop :=
  m.dead = true ∨ ∃ r, m.rounds[i]? = some r ∧ r ≠ .list ∧ Midway c up t s0 tr0 b m.s m.trees r

theorem under_step {i : Nat} {up : Reach} {t : Instant} {s0 : LoggerState} {tr0 : List (List Cert × GossipObj)} {b : Built}
    (hp : PoolRep s0.pool) (hb : buildMerkle X c t s0.pool.getCerts (loggerNextNum t) = some b) {m : LogConc}
    (h : UnderWay c i up t s0 tr0 b m) {e : LogConcEvent} (he : Beside i up e) : UnderWay c i up t s0 tr0 b (logConcStep X c m e) := by
  unfold logConcStep
  cases hd : m.dead with
  | true => simp only [if_true]; exact Or.inl hd
  | false =>
    simp only [Bool.false_eq_true, if_false]
    rcases h with h | ⟨r, hr, hl, hm⟩
    · rw [hd] at h; cases h
    cases e with
    | precert body =>
      simp only
      split
      · exact Or.inl rfl
      · rename_i s hs
        exact Or.inr ⟨r, hr, hl, midway_receive X c hm hs⟩
    | request t' => exact Or.inr ⟨r, hr, hl, midway_request c hm t'⟩
    | timer => exact he.elim
    | run j t' u =>
      obtain ⟨rfl, rfl⟩ := he
      simp only [hr]
      split
      · exact Or.inl rfl
      · rename_i s' new r' hs
        obtain ⟨h1, h2⟩ := midway_step X c hp hb hl hm hs
        refine Or.inr ⟨r', ?_, h2, h1⟩
        simp only
        rw [List.getElem?_set_self (List.getElem?_eq_some_iff.1 hr).1]

theorem under_run {i : Nat} {up : Reach} {t : Instant} {s0 : LoggerState} {tr0 : List (List Cert × GossipObj)} {b : Built}
    (hp : PoolRep s0.pool) (hb : buildMerkle X c t s0.pool.getCerts (loggerNextNum t) = some b) (h : List LogConcEvent)
    (he : ∀ e ∈ h, Beside i up e) {m : LogConc} (hm : UnderWay c i up t s0 tr0 b m) :
    UnderWay c i up t s0 tr0 b (logConcRun X c m h) := by
  induction h generalizing m with
  | nil => exact hm
  | cons e r ih =>
    exact ih (fun e' he' => he e' (List.mem_cons_of_mem _ he')) (under_step X c hp hb hm (he e (by simp)))

/-- The first step of the round. -/
theorem under_begin {i : Nat} {t : Instant} {up : Reach} {m : LogConc} (hd : m.dead = false) (hi : m.rounds[i]? = some .list) :
    (∃ b, buildMerkle X c t m.s.pool.getCerts (loggerNextNum t) = some b ∧
      UnderWay c i up t m.s m.trees b (logConcStep X c m (.run i t up)) ∧ (logConcStep X c m (.run i t up)).dead = false) ∨
    buildMerkle X c t m.s.pool.getCerts (loggerNextNum t) = none ∧ (logConcStep X c m (.run i t up)).dead = true := by
  unfold logConcStep
  simp only [hd, Bool.false_eq_true, if_false, hi]
  simp only [roundStep]
  cases hb : buildMerkle X c t m.s.pool.getCerts (loggerNextNum t) with
  | none => exact Or.inr ⟨rfl, rfl⟩
  | some b =>
    refine Or.inl ⟨b, rfl, Or.inr ⟨.fake t m.s.pool.getCerts b, ?_, by simp, rfl, rfl, rfl, poolExt_refl _, rfl, rfl, rfl, ?_⟩, rfl⟩
    · simp only
      rw [List.getElem?_set_self (List.getElem?_eq_some_iff.1 hi).1]
    · simp

/-- What the round that is about to clear the pool has done is the round of the sequential model, on the pool it began with. -/
theorem under_reset {i : Nat} {up : Reach} {t : Instant} {s0 : LoggerState} {tr0 : List (List Cert × GossipObj)} {b : Built}
    (hb : buildMerkle X c t s0.pool.getCerts (loggerNextNum t) = some b) {m : LogConc}
    (h : UnderWay c i up t s0 tr0 b m) (hd : m.dead = false) (hr : m.rounds[i]? = some .reset) :
    ∃ s', loggerRoundVia X c up t s0 = some s' ∧ m.s.sthStorage = s'.sthStorage ∧ m.s.sentSTHs = s'.sentSTHs ∧
      m.s.sentPOIs = s'.sentPOIs ∧ m.trees = tr0 ++ [(s0.pool.getCerts, b.sth)] := by
  rcases h with h | ⟨r, hr', _, hm⟩
  · rw [hd] at h; cases h
  rw [hr] at hr'
  cases hr'
  obtain ⟨_, h1, h2, ⟨sent, h3, h4⟩, h5⟩ := hm
  unfold loggerRoundVia
  have h2' := (buildMerkle_pois_mem X c hb).1
  simp only [hb, h3]
  cases hc : s0.pool.getCerts with
  | nil => rw [hc] at h2'; simp at h2'
  | cons c0 rest =>
    obtain ⟨_, _, f, hf, _⟩ := buildMerkle_some X c t ((c0 :: rest) ++ [c0]) (loggerNextNum t) (by simp)
    simp only [hf]
    exact ⟨_, rfl, h1, h2, h4, hc ▸ h5⟩

/-- C125, what an end of period does whatever arrives meanwhile: from any reachable state, with any certificates and requests
between its steps, the moment it clears the pool the tree head stored for the next period, the tree heads and the proofs
posted are those of the round executed at once on the pool it began with. All certificates that arrived in between are
thrown away. Missing for the full property: those certificates, and ends of periods that overlap. -/
theorem C125_round_of_first_pool_partial (m : LogConc) (hm : LogReach X c m) (hd : m.dead = false) (i : Nat) (t t' : Instant)
    (up : Reach) (hi : m.rounds[i]? = some .list) (h : List LogConcEvent) (hh : ∀ e ∈ h, Beside i up e)
    (hl : (logConcRun X c m (.run i t up :: h)).dead = false)
    (hr : (logConcRun X c m (.run i t up :: h)).rounds[i]? = some .reset) :
    let m2 := logConcRun X c m (.run i t up :: h ++ [.run i t' up])
    ∃ s' g, loggerRoundVia X c up t m.s = some s' ∧ s'.sthStorage.get (loggerNextPeriod t) = some g ∧ m2.dead = false ∧
      m2.s.sthStorage = s'.sthStorage ∧ m2.s.sentSTHs = s'.sentSTHs ∧ m2.s.sentPOIs = s'.sentPOIs ∧ m2.s.pool = s'.pool ∧
      m2.s.pool.getCerts = [] ∧ m2.trees = m.trees ++ [(m.s.pool.getCerts, g)] := by
  have hp := logReach_pool X c hm
  rcases under_begin X c (t := t) (up := up) hd hi with ⟨b, hb, hu, _⟩ | ⟨_, hx⟩
  · have hu' := under_run X c hp hb h hh hu
    rw [← logConcRun_cons] at hu'
    obtain ⟨s', h1, h2, h3, h4, h5⟩ := under_reset X c hb hu' hl hr
    have hstep : logConcRun X c m (.run i t up :: h ++ [.run i t' up]) =
        logConcStep X c (logConcRun X c m (.run i t up :: h)) (.run i t' up) := by
      rw [logConcRun_append]; rfl
    rw [hstep]
    have h1' := h1
    unfold loggerRoundVia at h1
    simp only [hb] at h1
    revert h1
    split
    · intro h1; cases h1
    · split
      · intro h1; cases h1
      · split
        · intro h1; cases h1
        · intro h1
          simp only [Option.some.injEq] at h1
          have hg : s'.sthStorage.get (loggerNextPeriod t) = some b.sth := by
            rw [← h1]; exact GoMap.get_set_self _ _ _
          have hpool : s'.pool = CertPool.new := by rw [← h1]
          refine ⟨s', b.sth, h1', hg, ?_⟩
          unfold logConcStep
          simp only [hl, Bool.false_eq_true, if_false, hr, roundStep, List.append_nil]
          exact ⟨trivial, h2, h3, h4, hpool.symm, rfl, h5⟩
  · rw [logConcRun_cons, logConcRun_dead X c _ hx, hx] at hl
    cases hl

/-! ### Surviving the round -/

/-- How many steps a round has left before it clears the pool. -/
def roundLeft : RoundAt → Nat
  | .list | .done | .reset => 0
  | .fake _ _ b => 6 + c.allCAs.length + b.pois.length
  | .store _ _ b _ => 5 + c.allCAs.length + b.pois.length
  | .sths b todo => 4 + todo.length + b.pois.length
  | .pois _ todo => 2 + todo.length
  | .count => 1

theorem roundLeft_step {t : Instant} {up : Reach} {s s' : LoggerState} {r r' : RoundAt} {new : List (List Cert × GossipObj)}
    (h : roundStep X c t up s r = some (s', new, r')) (hw : r.window = true) (hr : r ≠ .reset) :
    r'.window = true ∧ roundLeft c r' < roundLeft c r := by
  cases r with
  | list => cases hw
  | fake t0 certs b =>
    simp only [roundStep] at h
    split at h
    · cases h
    · split at h
      · cases h
      · cases h; exact ⟨rfl, by simp only [roundLeft]; omega⟩
  | store t0 certs b f => cases h; exact ⟨rfl, by simp only [roundLeft]; omega⟩
  | sths b todo =>
    cases todo with
    | nil => cases h; exact ⟨rfl, by simp only [roundLeft, List.length_nil]; omega⟩
    | cons a r =>
      simp only [roundStep, Option.some.injEq, Prod.mk.injEq] at h
      obtain ⟨_, _, rfl⟩ := h
      exact ⟨rfl, by simp only [roundLeft, List.length_cons]; omega⟩
  | pois b todo =>
    cases todo with
    | nil => cases h; exact ⟨rfl, by simp only [roundLeft, List.length_nil]; omega⟩
    | cons p r =>
      simp only [roundStep] at h
      split at h
      · split at h
        · split at h
          · split at h
            · cases h; exact ⟨rfl, by simp only [roundLeft, List.length_cons]; omega⟩
            · cases h
          · cases h; exact ⟨rfl, by simp only [roundLeft, List.length_cons]; omega⟩
        · cases h
      · cases h; exact ⟨rfl, by simp only [roundLeft, List.length_cons]; omega⟩
  | count => cases h; exact ⟨rfl, by simp only [roundLeft]; omega⟩
  | reset => exact absurd rfl hr
  | done => cases hw

/-- With the issuers answering, no step of a round that is alone panics. -/
theorem midway_survives {up : Reach} {t : Instant} {s0 : LoggerState} {tr0 : List (List Cert × GossipObj)} {b : Built}
    (hp : PoolRep s0.pool) (hb : buildMerkle X c t s0.pool.getCerts (loggerNextNum t) = some b)
    (hup : ∀ x ∈ s0.pool.getCerts, up x.issuerCN = true)
    {s : LoggerState} {tr : List (List Cert × GossipObj)} {r : RoundAt} (hr : r ≠ .list)
    (h : Midway c up t s0 tr0 b s tr r) (t' : Instant) : ∃ y, roundStep X c t' up s r = some y := by
  cases r with
  | list => exact absurd rfl hr
  | fake t0 certs b' =>
    obtain ⟨_, _, _, ⟨⟨more, h1⟩, _⟩, _⟩ := h
    have h2 := (buildMerkle_pois_mem X c hb).1
    simp only [roundStep]
    cases hc : s.pool.getCerts with
    | nil =>
      unfold CertPool.getCerts at hc h2
      rw [h1] at hc
      rw [(List.append_eq_nil_iff.1 hc).1] at h2
      simp at h2
    | cons c0 rest =>
      obtain ⟨_, _, f, hf, _⟩ := buildMerkle_some X c t' ((c0 :: rest) ++ [c0]) (loggerNextNum t0) (by simp)
      simp only [hf]
      exact ⟨_, rfl⟩
  | store t0 certs b' f => exact ⟨_, rfl⟩
  | sths b' todo => cases todo <;> exact ⟨_, rfl⟩
  | pois b' todo =>
    obtain ⟨rfl, h1, _, _, hsub, _, _⟩ := h
    cases todo with
    | nil => exact ⟨_, rfl⟩
    | cons p todo =>
      simp only [roundStep]
      by_cases hk : p.subjectKeyId.length ≠ 0
      · rw [if_pos hk]
        obtain ⟨x, hx, hkx, hix⟩ := (buildMerkle_pois_mem X c hb).2 p (hsub p (by simp))
        obtain ⟨y, hy, _, _⟩ := poolRep_lookup hp hx (by rw [← hkx]; intro e; rw [e] at hk; exact hk rfl)
        rw [← hkx] at hy
        rw [h1.2 _ _ hy]
        simp only [hix, hup x hx, if_true]
        split <;> exact ⟨_, rfl⟩
      · rw [if_neg hk]; exact ⟨_, rfl⟩
  | count => exact ⟨_, rfl⟩
  | reset => exact ⟨_, rfl⟩
  | done => exact ⟨_, rfl⟩

/-- Every body that arrives is a certificate. -/
def Parses : LogConcEvent → Prop
  | .precert body => ∃ cert, X.parseCert body = some cert
  | _ => True

theorem survives_step {i : Nat} {up : Reach} {t : Instant} {s0 : LoggerState} {tr0 : List (List Cert × GossipObj)} {b : Built}
    (hp : PoolRep s0.pool) (hb : buildMerkle X c t s0.pool.getCerts (loggerNextNum t) = some b)
    (hup : ∀ x ∈ s0.pool.getCerts, up x.issuerCN = true) {m : LogConc} (hpm : PoolRep m.s.pool)
    (h : UnderWay c i up t s0 tr0 b m) (hd : m.dead = false) {e : LogConcEvent} (he : Beside i up e) (hx : Parses X e) :
    (logConcStep X c m e).dead = false := by
  rcases h with h | ⟨r, hr, hl, hm⟩
  · rw [hd] at h; cases h
  unfold logConcStep
  simp only [hd, Bool.false_eq_true, if_false]
  cases e with
  | precert body =>
    obtain ⟨cert, hc⟩ := hx
    obtain ⟨p', ha, _⟩ := poolRep_add hpm cert.parseTBS
    simp only [loggerReceive, hc, ha]
  | request t' => rfl
  | timer => exact he.elim
  | run j t' u =>
    obtain ⟨rfl, rfl⟩ := he
    obtain ⟨⟨s', new, r'⟩, hy⟩ := midway_survives X c hp hb hup hl hm t'
    simp only [hr, hy]

theorem survives_run {i : Nat} {up : Reach} {t : Instant} {s0 : LoggerState} {tr0 : List (List Cert × GossipObj)} {b : Built}
    (hp : PoolRep s0.pool) (hb : buildMerkle X c t s0.pool.getCerts (loggerNextNum t) = some b)
    (hup : ∀ x ∈ s0.pool.getCerts, up x.issuerCN = true) (h : List LogConcEvent) (he : ∀ e ∈ h, Beside i up e)
    (hx : ∀ e ∈ h, Parses X e) {m : LogConc} (hpm : PoolRep m.s.pool) (hm : UnderWay c i up t s0 tr0 b m) (hd : m.dead = false) :
    (logConcRun X c m h).dead = false := by
  induction h generalizing m with
  | nil => exact hd
  | cons e r ih =>
    rw [logConcRun_cons]
    exact ih (fun e' he' => he e' (List.mem_cons_of_mem _ he')) (fun e' he' => hx e' (List.mem_cons_of_mem _ he'))
      (logConcStep_pool X c e hpm) (under_step X c hp hb hm (he e (by simp)))
      (survives_step X c hp hb hup hpm hm hd (he e (by simp)) (hx e (by simp)))

/-- A round in its window gets to the point of clearing the pool when it is run. -/
theorem reaches_reset {i : Nat} {up : Reach} {t : Instant} {s0 : LoggerState} {tr0 : List (List Cert × GossipObj)} {b : Built}
    (hp : PoolRep s0.pool) (hb : buildMerkle X c t s0.pool.getCerts (loggerNextNum t) = some b)
    (hup : ∀ x ∈ s0.pool.getCerts, up x.issuerCN = true) (t' : Instant) (k : Nat) (m : LogConc)
    (hm : UnderWay c i up t s0 tr0 b m) (hd : m.dead = false) (r : RoundAt) (hr : m.rounds[i]? = some r) (hw : r.window = true)
    (hk : roundLeft c r ≤ k) :
    ∃ n, (logConcRun X c m (List.replicate n (.run i t' up))).dead = false ∧
      (logConcRun X c m (List.replicate n (.run i t' up))).rounds[i]? = some .reset := by
  induction k generalizing m r with
  | zero =>
    cases r with
    | reset => exact ⟨0, hd, hr⟩
    | list => cases hw
    | done => cases hw
    | fake t0 certs b => simp only [roundLeft] at hk; omega
    | store t0 certs b f => simp only [roundLeft] at hk; omega
    | sths b todo => simp only [roundLeft] at hk; omega
    | pois b todo => simp only [roundLeft] at hk; omega
    | count => simp only [roundLeft] at hk; omega
  | succ k ih =>
    by_cases hreset : r = .reset
    · subst hreset; exact ⟨0, hd, hr⟩
    have hu := under_step X c hp hb hm (e := .run i t' up) ⟨rfl, rfl⟩
    rcases hm with h | ⟨r1, hr1, hl, hmid⟩
    · rw [hd] at h; cases h
    rw [hr] at hr1
    cases hr1
    obtain ⟨⟨s', new, r'⟩, hy⟩ := midway_survives X c hp hb hup hl hmid t'
    obtain ⟨hw', hlt⟩ := roundLeft_step X c hy hw hreset
    have hstep : logConcStep X c m (.run i t' up) = { m with s := s', rounds := m.rounds.set i r', trees := m.trees ++ new } := by
      unfold logConcStep
      simp only [hd, Bool.false_eq_true, if_false, hr, hy]
    obtain ⟨n, h1, h2⟩ := ih (logConcStep X c m (.run i t' up)) hu (by rw [hstep]; exact hd) r'
      (by rw [hstep]; exact List.getElem?_set_self (List.getElem?_eq_some_iff.1 hr).1) hw' (by omega)
    exact ⟨n + 1, h1, h2⟩

/-- C126, what holds: the end of a period of a logger with two certificates in its pool, whose issuers answer, does not end the
process, however long it takes and whatever certificates and requests arrive between its steps, if no other end of period
begins meanwhile. Missing for the full property: ends of periods that overlap. -/
theorem C126_round_alone_survives_partial (m : LogConc) (hm : LogReach X c m) (hd : m.dead = false) (i : Nat) (t : Instant)
    (up : Reach) (hi : m.rounds[i]? = some .list) (h2 : 2 ≤ m.s.pool.getCerts.length)
    (hup : ∀ x ∈ m.s.pool.getCerts, up x.issuerCN = true) (h : List LogConcEvent) (hh : ∀ e ∈ h, Beside i up e)
    (hx : ∀ e ∈ h, Parses X e) : (logConcRun X c m (.run i t up :: h)).dead = false := by
  have hp := logReach_pool X c hm
  rcases under_begin X c (t := t) (up := up) hd hi with ⟨b, hb, hu, hd'⟩ | ⟨hn, _⟩
  · exact survives_run X c hp hb hup h hh hx (logConcStep_pool X c _ hp) hu hd'
  · obtain ⟨_, _, b, hb, _⟩ := buildMerkle_some X c t m.s.pool.getCerts (loggerNextNum t) h2
    rw [hb] at hn
    cases hn

/-- `m'` is `m` after some steps of round `i` alone. -/
def AloneTo (i : Nat) (t : Instant) (up : Reach) (m m' : LogConc) : Prop :=
  ∃ n, logConcRun X c m (List.replicate n (.run i t up)) = m'

variable {X c} in
theorem aloneTo_trans {i : Nat} {t : Instant} {up : Reach} {a b d : LogConc} (h : AloneTo X c i t up a b) (h' : AloneTo X c i t up b d) :
    AloneTo X c i t up a d := by
  obtain ⟨n, hn⟩ := h
  obtain ⟨k, hk⟩ := h'
  exact ⟨n + k, by rw [← List.replicate_append_replicate, logConcRun_append, hn, hk]⟩

variable {X c} in
theorem aloneTo_step {i : Nat} {t : Instant} {up : Reach} {s s' : LoggerState} {rs : List RoundAt} {tr new : List (List Cert × GossipObj)}
    {r r' : RoundAt} (hi : i < rs.length) (h : roundStep X c t up s r = some (s', new, r')) :
    AloneTo X c i t up ⟨s, rs.set i r, tr, false⟩ ⟨s', rs.set i r', tr ++ new, false⟩ := by
  refine ⟨1, ?_⟩
  rw [List.replicate_one, logConcRun_cons]
  simp only [logConcRun, List.foldl_nil, logConcStep, Bool.false_eq_true, if_false, List.getElem?_set_self hi, h, List.set_set]

variable {X c} in
theorem aloneTo_dies {i : Nat} {t : Instant} {up : Reach} {s : LoggerState} {rs : List RoundAt} {tr : List (List Cert × GossipObj)}
    {r : RoundAt} (hi : i < rs.length) (h : roundStep X c t up s r = none) :
    AloneTo X c i t up ⟨s, rs.set i r, tr, false⟩ ⟨s, rs.set i r, tr, true⟩ := by
  refine ⟨1, ?_⟩
  rw [List.replicate_one, logConcRun_cons]
  simp only [logConcRun, List.foldl_nil, logConcStep, Bool.false_eq_true, if_false, List.getElem?_set_self hi, h]

/-- The posts of the tree head. -/
theorem aloneTo_sths {i : Nat} (t : Instant) (up : Reach) (b : Built) {rs : List RoundAt} (hi : i < rs.length) (tr : List (List Cert × GossipObj)) :
    ∀ (cas : List Str) (s : LoggerState), AloneTo X c i t up ⟨s, rs.set i (.sths b cas), tr, false⟩
      ⟨{ s with sentSTHs := s.sentSTHs ++ sendSTHsVia up cas b.sth }, rs.set i (.pois b b.pois), tr, false⟩ := by
  intro cas
  induction cas with
  | nil =>
    intro s
    have := aloneTo_step (c := c) (X := X) (t := t) (up := up) (s := s) (tr := tr) hi (r := .sths b []) rfl
    simpa [sendSTHsVia] using this
  | cons ca l ih =>
    intro s
    have h1 := aloneTo_step (c := c) (X := X) (t := t) (up := up) (s := s) (tr := tr) hi (r := .sths b (ca :: l)) rfl
    rw [List.append_nil] at h1
    have h2 := aloneTo_trans h1 (ih _)
    cases hu : up ca <;> simpa [hu, sendSTHsVia, List.append_assoc] using h2

/-- The posts of the proofs. -/
theorem aloneTo_pois {i : Nat} (t : Instant) (up : Reach) (b : Built) {rs : List RoundAt} (hi : i < rs.length) (tr : List (List Cert × GossipObj)) :
    ∀ (ps : List POI) (s : LoggerState),
      match sendPOIsVia up L.sha256 s.pool b.root ps with
      | none => ∃ s' rs', AloneTo X c i t up ⟨s, rs.set i (.pois b ps), tr, false⟩ ⟨s', rs', tr, true⟩
      | some sent => AloneTo X c i t up ⟨s, rs.set i (.pois b ps), tr, false⟩
          ⟨{ s with sentPOIs := s.sentPOIs ++ sent }, rs.set i .count, tr, false⟩ := by
  intro ps
  induction ps with
  | nil =>
    intro s
    have := aloneTo_step (c := c) (X := X) (t := t) (up := up) (s := s) (tr := tr) hi (r := .pois b []) rfl
    simpa [sendPOIsVia] using this
  | cons p l ih =>
    intro s
    unfold sendPOIsVia
    by_cases hk : p.subjectKeyId.length ≠ 0
    · rw [if_pos hk]
      have hstop : ∀ r, s.pool.getBySKI p.subjectKeyId = r → (∀ x, r ≠ .ok (some x)) →
          ∃ s' rs', AloneTo X c i t up ⟨s, rs.set i (.pois b (p :: l)), tr, false⟩ ⟨s', rs', tr, true⟩ := by
        intro r hr hne
        refine ⟨_, _, aloneTo_dies hi ?_⟩
        simp only [roundStep, if_pos hk, hr]
      cases hg : s.pool.getBySKI p.subjectKeyId with
      | panic => exact hstop _ hg (fun x h => by cases h)
      | ok o =>
        cases o with
        | none => exact hstop _ hg (fun x h => by cases h)
        | some cert =>
          simp only
          by_cases hv : verifyPOI L.sha256 b.root p.poi cert = true
          · rw [if_pos hv]
            by_cases hu : up p.issuer = true
            · rw [if_pos hu]
              have h1 := aloneTo_step (c := c) (X := X) (t := t) (up := up) (s := s) (tr := tr) hi (r := .pois b (p :: l))
                (s' := { s with sentPOIs := s.sentPOIs ++ [(p.issuer, p)] }) (new := []) (r' := .pois b l)
                (by simp only [roundStep, if_pos hk, hg, if_pos hv, if_pos hu])
              rw [List.append_nil] at h1
              have h2 := ih { s with sentPOIs := s.sentPOIs ++ [(p.issuer, p)] }
              simp only at h2
              cases hr : sendPOIsVia up L.sha256 s.pool b.root l with
              | none =>
                rw [hr] at h2
                obtain ⟨s', rs', h2⟩ := h2
                exact ⟨s', rs', aloneTo_trans h1 h2⟩
              | some sent =>
                rw [hr] at h2
                simp only [Option.map_some]
                simpa [List.append_assoc] using aloneTo_trans h1 h2
            · rw [if_neg hu]
              exact ⟨_, _, aloneTo_dies hi (by simp only [roundStep, if_pos hk, hg, if_pos hv, if_neg hu])⟩
          · rw [if_neg hv]
            have h1 := aloneTo_step (c := c) (X := X) (t := t) (up := up) (s := s) (tr := tr) hi (r := .pois b (p :: l))
              (s' := s) (new := []) (r' := .count) (by simp only [roundStep, if_pos hk, hg, if_neg hv])
            simpa using h1
    · rw [if_neg hk]
      have h1 := aloneTo_step (c := c) (X := X) (t := t) (up := up) (s := s) (tr := tr) hi (r := .pois b (p :: l))
        (s' := s) (new := []) (r' := .pois b l) (by simp only [roundStep, if_neg hk])
      rw [List.append_nil] at h1
      have h2 := ih s
      split at h2
      · obtain ⟨s', rs', h2⟩ := h2
        exact ⟨s', rs', aloneTo_trans h1 h2⟩
      · exact aloneTo_trans h1 h2

/-- C126, a part: the end of a period whose steps nothing comes between is the round of the sequential model (`loggerRoundVia`, of
which C64, C75, C103 and C120 speak): it ends the process if and only if that one does, and otherwise leaves the same state. -/
theorem C126_alone_partial (m : LogConc) (i : Nat) (t : Instant) (up : Reach) (hd : m.dead = false) (hi : m.rounds[i]? = some .list) :
    ∃ n, (loggerRoundVia X c up t m.s = none ∧ (logConcRun X c m (List.replicate n (.run i t up))).dead = true) ∨
      ∃ s' g, loggerRoundVia X c up t m.s = some s' ∧
        logConcRun X c m (List.replicate n (.run i t up)) = ⟨s', m.rounds.set i .done, m.trees ++ [(m.s.pool.getCerts, g)], false⟩ := by
  have hlt : i < m.rounds.length := (List.getElem?_eq_some_iff.1 hi).1
  have hm : m = ⟨m.s, m.rounds.set i .list, m.trees, false⟩ := by
    cases m
    simp only at hd hi hlt ⊢
    subst hd
    congr 1
    obtain ⟨_, e⟩ := List.getElem?_eq_some_iff.1 hi
    rw [← e, List.set_getElem_self]
  have hdie : ∀ {a : LogConc}, AloneTo X c i t up ⟨m.s, m.rounds.set i .list, m.trees, false⟩ a → a.dead = true →
      ∃ n, (logConcRun X c m (List.replicate n (.run i t up))).dead = true := by
    rintro a ⟨n, hn⟩ ha
    exact ⟨n, by rw [hm, hn]; exact ha⟩
  cases hb : buildMerkle X c t m.s.pool.getCerts (loggerNextNum t) with
  | none =>
    obtain ⟨n, hn⟩ := hdie (aloneTo_dies (c := c) (X := X) (t := t) (up := up) hlt (by simp only [roundStep, hb])) rfl
    exact ⟨n, .inl ⟨by simp only [loggerRoundVia, hb], hn⟩⟩
  | some b =>
    have h1 := aloneTo_step (c := c) (X := X) (t := t) (up := up) (s := m.s) (tr := m.trees) hlt (r := .list)
      (s' := { m.s with onlinePeriod := m.s.onlinePeriod + 1 }) (new := []) (r' := .fake t m.s.pool.getCerts b) (by simp only [roundStep, hb])
    rw [List.append_nil] at h1
    cases hcs : m.s.pool.getCerts with
    | nil =>
      rw [hcs] at h1 hb
      obtain ⟨n, hn⟩ := hdie (aloneTo_trans h1 (aloneTo_dies hlt (by simp only [roundStep, hcs]))) rfl
      exact ⟨n, .inl ⟨by simp only [loggerRoundVia, hcs, hb], hn⟩⟩
    | cons c0 r =>
      rw [hcs] at h1 hb
      cases hf : buildMerkle X c t (c0 :: r ++ [c0]) (loggerNextNum t) with
      | none =>
        obtain ⟨n, hn⟩ := hdie (aloneTo_trans h1 (aloneTo_dies hlt (by simp only [roundStep, hcs, hf]))) rfl
        exact ⟨n, .inl ⟨by simp only [loggerRoundVia, hcs, hb, hf], hn⟩⟩
      | some f =>
        have h2 := aloneTo_trans h1 (aloneTo_step (c := c) (X := X) (t := t) (up := up) (tr := m.trees) hlt (new := [])
          (r' := .store t (c0 :: r) b f) (s' := { m.s with onlinePeriod := m.s.onlinePeriod + 1 }) (by simp only [roundStep, hcs, hf]))
        rw [List.append_nil] at h2
        have h3 := aloneTo_trans h2 (aloneTo_step hlt rfl)
        have h4 := aloneTo_trans h3 (aloneTo_sths X c t up b hlt _ _ _)
        have h5 := aloneTo_pois X c t up b hlt (m.trees ++ [(c0 :: r, b.sth)]) b.pois
          { m.s with onlinePeriod := m.s.onlinePeriod + 1
                     sthStorage := m.s.sthStorage.set (loggerNextPeriod t) b.sth
                     sthStorageFake := m.s.sthStorageFake.set (loggerNextPeriod t) f.sth
                     sentSTHs := m.s.sentSTHs ++ sendSTHsVia up c.allCAs b.sth }
        simp only at h5
        cases hs : sendPOIsVia up L.sha256 m.s.pool b.root b.pois with
        | none =>
          rw [hs] at h5
          obtain ⟨s', rs', h5⟩ := h5
          obtain ⟨n, hn⟩ := hdie (aloneTo_trans h4 h5) rfl
          exact ⟨n, .inl ⟨by simp only [loggerRoundVia, hcs, hb, hf, hs], hn⟩⟩
        | some sent =>
          rw [hs] at h5
          have h6 := aloneTo_trans (aloneTo_trans h4 h5) (aloneTo_step hlt rfl)
          have h7 := aloneTo_trans h6 (aloneTo_step hlt rfl)
          obtain ⟨n, hn⟩ := h7
          rw [← hm] at hn
          refine ⟨n, .inr ⟨_, b.sth, ?_, by simpa using hn⟩⟩
          simp only [loggerRoundVia, hcs, hb, hf, hs]

/-- C126 fails when two ends of periods overlap, which takes posts slower than a period: if one clears the pool while the other
still has a proof to post, the next step of the other one dereferences nil and the process ends. In any state, whatever the
certificates, and even if every address answers. -/
theorem C126_violated_overlap (m : LogConc) (hd : m.dead = false) (i j : Nat) (hij : i ≠ j) (hi : m.rounds[i]? = some .reset)
    (b : Built) (p : POI) (todo : List POI) (hj : m.rounds[j]? = some (.pois b (p :: todo))) (hk : p.subjectKeyId ≠ [])
    (t t' : Instant) (up up' : Reach) : (logConcRun X c m [.run i t up, .run j t' up']).dead = true := by
  have h1 : logConcStep X c m (.run i t up) = { m with s := { m.s with pool := CertPool.new }, rounds := m.rounds.set i .done } := by
    unfold logConcStep
    simp only [hd, Bool.false_eq_true, if_false, hi, roundStep, List.append_nil]
  rw [logConcRun_cons, h1, logConcRun_cons]
  have hj' : (m.rounds.set i .done)[j]? = some (.pois b (p :: todo)) := by
    rw [List.getElem?_set_ne hij]; exact hj
  have hk' : p.subjectKeyId.length ≠ 0 := fun h => hk (List.length_eq_zero_iff.1 h)
  have hl : CertPool.new.getBySKI p.subjectKeyId = .ok none := rfl
  simp only [logConcStep, hd, Bool.false_eq_true, if_false, hj', roundStep, if_pos hk', hl]
  rfl

/-- C125 fails: at every moment of the window of an end of period (its goroutine has copied the pool and not yet cleared it), in
every reachable state with two certificates in the pool whose issuers answer, a certificate with a new subject is accepted
into the pool, the round goes on to its end without failing, and then the certificate is gone: the pool is empty, and the
only tree head added since the round began is over the certificates that were in the pool then. -/
theorem C125_violated_window (m : LogConc) (hm : LogReach X c m) (hd : m.dead = false) (i : Nat) (t t' : Instant)
    (up : Reach) (hi : m.rounds[i]? = some .list) (h2 : 2 ≤ m.s.pool.getCerts.length)
    (hup : ∀ x ∈ m.s.pool.getCerts, up x.issuerCN = true) (h : List LogConcEvent) (hh : ∀ e ∈ h, Beside i up e)
    (hx : ∀ e ∈ h, Parses X e) (r : RoundAt) (hr : (logConcRun X c m (.run i t up :: h)).rounds[i]? = some r)
    (hw : r.window = true) (body : Str) (cert : Cert) (hb : X.parseCert body = some cert)
    (hnew : ∀ x ∈ (logConcRun X c m (.run i t up :: h)).s.pool.getCerts, x.rawSubject ≠ cert.rawSubject) :
    let m1 := logConcRun X c m (.run i t up :: h ++ [.precert body])
    cert.parseTBS ∈ m1.s.pool.getCerts ∧ cert.parseTBS ∉ m.s.pool.getCerts ∧
      ∃ n g, let m2 := logConcRun X c m1 (List.replicate n (.run i t' up))
        m2.dead = false ∧ m2.s.pool.getCerts = [] ∧ m2.trees = m.trees ++ [(m.s.pool.getCerts, g)] := by
  have hp := logReach_pool X c hm
  have halive := C126_round_alone_survives_partial X c m hm hd i t up hi h2 hup h hh hx
  rcases under_begin X c (t := t) (up := up) hd hi with ⟨b, hbm, hu, hd'⟩ | ⟨hn, _⟩
  · have hu1 := under_run X c hp hbm h hh hu
    rw [← logConcRun_cons] at hu1
    have hp1 : PoolRep (logConcRun X c m (.run i t up :: h)).s.pool := logConcRun_pool X c _ hp
    have hsplit : logConcRun X c m (.run i t up :: h ++ [.precert body]) =
        logConcStep X c (logConcRun X c m (.run i t up :: h)) (.precert body) := by rw [logConcRun_append]; rfl
    generalize hmm : logConcRun X c m (.run i t up :: h) = mm at *
    obtain ⟨p', ha, hc⟩ := poolRep_add_new hp1 cert.parseTBS (fun y hy => hnew y hy)
    have hstep : logConcStep X c mm (.precert body) = { mm with s := { mm.s with pool := p' } } := by
      unfold logConcStep
      simp only [halive, Bool.false_eq_true, if_false, loggerReceive, hb, ha]
    have hext : ∀ y ∈ m.s.pool.getCerts, y ∈ mm.s.pool.getCerts := by
      rcases hu1 with hu1 | ⟨r1, hr1, hl1, hmid⟩
      · rw [halive] at hu1; cases hu1
      rw [hr] at hr1
      cases hr1
      obtain ⟨⟨more, he⟩, _⟩ := midway_ext c hw hmid
      intro y hy
      unfold CertPool.getCerts
      rw [he]
      exact List.mem_append_left _ hy
    rw [hsplit]
    have hu2 := under_step X c hp hbm hu1 (e := .precert body) trivial
    rw [hstep] at hu2 ⊢
    refine ⟨?_, fun hin => hnew _ (hext _ hin) rfl, ?_⟩
    · show _ ∈ p'.certs
      rw [hc]; simp
    obtain ⟨n, e1, e2⟩ := reaches_reset X c hp hbm hup t' (roundLeft c r) _ hu2 halive r hr hw (Nat.le_refl _)
    have hu3 := under_run X c hp hbm (List.replicate n (.run i t' up)) (by
      intro e he; rw [(List.mem_replicate.1 he).2]; exact ⟨rfl, rfl⟩) hu2
    obtain ⟨_, _, _, _, _, htr⟩ := under_reset X c hbm hu3 e1 e2
    refine ⟨n + 1, b.sth, ?_⟩
    rw [List.replicate_succ', logConcRun_append]
    generalize logConcRun X c _ (List.replicate n (.run i t' up)) = m3 at e1 e2 htr ⊢
    show (logConcStep X c m3 (.run i t' up)).dead = false ∧ (logConcStep X c m3 (.run i t' up)).s.pool.getCerts = [] ∧
      (logConcStep X c m3 (.run i t' up)).trees = _
    unfold logConcStep
    simp only [e1, Bool.false_eq_true, if_false, e2, roundStep, List.append_nil]
    exact ⟨trivial, rfl, htr⟩
  · obtain ⟨_, _, b, hb', _⟩ := buildMerkle_some X c t m.s.pool.getCerts (loggerNextNum t) h2
    rw [hb'] at hn
    cases hn

/-! ### No certificate in the window -/

/-- No certificate arrives while an end of period has copied the pool and not yet cleared it. Any number of ends of periods,
overlapping or not, requests at any time. -/
def NoneInWindow (m : LogConc) : List LogConcEvent → Prop
  | [] => True
  | e :: h => (match e with | .precert _ => ∀ r ∈ m.rounds, r.window = false | _ => True) ∧ NoneInWindow (logConcStep X c m e) h

/-- `x` is one of the certificates under the tree head `g`: a proof of inclusion built with `g` verifies for it against the
root in `g`. -/
def UnderHead (g : GossipObj) (x : Cert) : Prop :=
  ∃ t certs n b, buildMerkle X c t certs n = some b ∧ b.sth = g ∧ x ∈ certs ∧
    ∃ p ∈ b.pois, p.subjectKeyId = x.subjectKeyId ∧ p.issuer = x.issuerCN ∧ verifyPOI L.sha256 b.root p.poi x = true

theorem underHead_of {t : Instant} {certs : List Cert} {n : Nat} {b : Built} (hb : buildMerkle X c t certs n = some b) {x : Cert}
    (hx : x ∈ certs) : UnderHead X c b.sth x := by
  refine ⟨t, certs, n, b, hb, rfl, hx, ?_⟩
  have h2 := (buildMerkle_pois_mem X c hb).1
  obtain ⟨tree, ht, b', hb', hroot, hpois⟩ := buildMerkle_some X c t certs n h2
  rw [hb] at hb'
  cases hb'
  obtain ⟨tree', ht', _, hv⟩ := C61_proofs_complete L.sha256 (certs.map Cert.block) (by simpa using h2)
  rw [ht] at ht'
  cases ht'
  obtain ⟨i, hi, hxi⟩ := List.getElem_of_mem hx
  have hxi' : certs[i]? = some x := by rw [List.getElem?_eq_some_iff]; exact ⟨hi, hxi⟩
  refine ⟨⟨tree.proofs[i]?, x.subjectKeyId, x.issuerCN, c.signer⟩, ?_, rfl, rfl, ?_⟩
  · rw [hpois]
    refine List.mem_map.2 ⟨(x, i), ?_, rfl⟩
    rw [List.mem_iff_getElem?]
    exact ⟨i, by rw [List.getElem?_zipIdx, hxi']; simp⟩
  · rw [verifyPOI, hroot]
    exact hv i _ (by rw [List.getElem?_map, hxi']; rfl)

/-- What is in the pool is under the tree head being made, or under one made already. -/
def WindowOk (m : LogConc) : RoundAt → Prop
  | .list | .done => True
  | .fake _ certs _ | .store _ certs _ _ => ∀ x ∈ m.s.pool.getCerts, x ∈ certs
  | _ => ∀ x ∈ m.s.pool.getCerts, ∃ tr ∈ m.trees, x ∈ tr.1

/-- The tree being made is over the certificates listed. -/
def BuiltOk : RoundAt → Prop
  | .fake _ certs b | .store _ certs b _ => ∃ t n, buildMerkle X c t certs n = some b
  | _ => True

theorem windowOk_mono {m m' : LogConc} (hp : ∀ x ∈ m'.s.pool.getCerts, x ∈ m.s.pool.getCerts)
    (ht : ∀ tr ∈ m.trees, tr ∈ m'.trees) {r : RoundAt} (h : WindowOk m r) : WindowOk m' r := by
  have key : (∀ x ∈ m.s.pool.getCerts, ∃ tr ∈ m.trees, x ∈ tr.1) → ∀ x ∈ m'.s.pool.getCerts, ∃ tr ∈ m'.trees, x ∈ tr.1 := by
    intro h x hx
    obtain ⟨tr, h1, h2⟩ := h x (hp x hx)
    exact ⟨tr, ht tr h1, h2⟩
  cases r with
  | list => trivial
  | done => trivial
  | fake t0 certs b => exact fun x hx => h x (hp x hx)
  | store t0 certs b f => exact fun x hx => h x (hp x hx)
  | sths b todo => exact key h
  | pois b todo => exact key h
  | count => exact key h
  | reset => exact key h

/-- The state after a step of a round: its own invariant, what is built, what is kept. -/
theorem window_step {t : Instant} {up : Reach} {m : LogConc} {r r' : RoundAt} {s' : LoggerState}
    {new : List (List Cert × GossipObj)} (h : roundStep X c t up m.s r = some (s', new, r')) (hw : WindowOk m r)
    (hb : BuiltOk X c r) (rs : List RoundAt) :
    WindowOk { m with s := s', rounds := rs, trees := m.trees ++ new } r' ∧ BuiltOk X c r' ∧
      (∀ tr ∈ new, ∀ x ∈ tr.1, UnderHead X c tr.2 x) ∧
      (∀ x ∈ s'.pool.getCerts, x ∈ m.s.pool.getCerts) ∧
      ∀ x ∈ m.s.pool.getCerts, x ∈ s'.pool.getCerts ∨ ∃ tr ∈ m.trees, x ∈ tr.1 := by
  cases r with
  | list =>
    simp only [roundStep] at h
    split at h
    · cases h
    · rename_i b hbm
      cases h
      exact ⟨fun x hx => hx, ⟨_, _, hbm⟩, by simp, fun x hx => hx, fun x hx => Or.inl hx⟩
  | fake t0 certs b =>
    simp only [roundStep] at h
    split at h
    · cases h
    · split at h
      · cases h
      · cases h; exact ⟨hw, hb, by simp, fun x hx => hx, fun x hx => Or.inl hx⟩
  | store t0 certs b f =>
    cases h
    obtain ⟨tb, n, hbm⟩ := hb
    refine ⟨fun x hx => ⟨(certs, b.sth), by simp, hw x hx⟩, trivial, ?_, fun x hx => hx, fun x hx => Or.inl hx⟩
    intro tr htr x hx
    rw [List.mem_singleton] at htr
    subst htr
    exact underHead_of X c hbm hx
  | sths b todo =>
    cases todo with
    | nil => cases h; exact ⟨by simpa [WindowOk] using hw, trivial, by simp, fun x hx => hx, fun x hx => Or.inl hx⟩
    | cons a r =>
      simp only [roundStep, Option.some.injEq, Prod.mk.injEq] at h
      obtain ⟨rfl, rfl, rfl⟩ := h
      have hpool : (if up a = true then { m.s with sentSTHs := m.s.sentSTHs ++ [(a, b.sth)] } else m.s).pool = m.s.pool := by
        split <;> rfl
      refine ⟨?_, trivial, by simp, by rw [hpool]; exact fun x hx => hx, by rw [hpool]; exact fun x hx => Or.inl hx⟩
      simp only [WindowOk, hpool, List.append_nil]
      exact hw
  | pois b todo =>
    cases todo with
    | nil => cases h; exact ⟨by simpa [WindowOk] using hw, trivial, by simp, fun x hx => hx, fun x hx => Or.inl hx⟩
    | cons p r =>
      simp only [roundStep] at h
      split at h
      · split at h
        · split at h
          · split at h
            · cases h; exact ⟨by simpa [WindowOk] using hw, trivial, by simp, fun x hx => hx, fun x hx => Or.inl hx⟩
            · cases h
          · cases h; exact ⟨by simpa [WindowOk] using hw, trivial, by simp, fun x hx => hx, fun x hx => Or.inl hx⟩
        · cases h
      · cases h; exact ⟨by simpa [WindowOk] using hw, trivial, by simp, fun x hx => hx, fun x hx => Or.inl hx⟩
  | count => cases h; exact ⟨by simpa [WindowOk] using hw, trivial, by simp, fun x hx => hx, fun x hx => Or.inl hx⟩
  | reset =>
    cases h
    exact ⟨trivial, trivial, by simp, (fun x hx => by cases hx), fun x hx => Or.inr (hw x hx)⟩
  | done => cases h; exact ⟨trivial, trivial, by simp, fun x hx => hx, fun x hx => Or.inl hx⟩

/-- The invariant of calm schedules. -/
structure WindowInv (m : LogConc) : Prop where
  window : ∀ r ∈ m.rounds, WindowOk m r
  built : ∀ r ∈ m.rounds, BuiltOk X c r
  trees : ∀ tr ∈ m.trees, ∀ x ∈ tr.1, UnderHead X c tr.2 x

theorem noneInWindow_step {m : LogConc} (h : WindowInv X c m) (e : LogConcEvent)
    (he : match e with | .precert _ => ∀ r ∈ m.rounds, r.window = false | _ => True) :
    WindowInv X c (logConcStep X c m e) ∧ (∀ tr ∈ m.trees, tr ∈ (logConcStep X c m e).trees) ∧
      ∀ x ∈ m.s.pool.getCerts, x ∈ (logConcStep X c m e).s.pool.getCerts ∨ ∃ tr ∈ m.trees, x ∈ tr.1 := by
  unfold logConcStep
  cases hd : m.dead with
  | true => exact ⟨h, fun tr h => h, fun x hx => Or.inl hx⟩
  | false =>
    simp only [Bool.false_eq_true, if_false]
    have hsame : ∀ m' : LogConc, m'.s.pool = m.s.pool → m'.rounds = m.rounds → m'.trees = m.trees → WindowInv X c m' := by
      intro m' h1 h2 h3
      refine ⟨?_, by rw [h2]; exact h.built, by rw [h3]; exact h.trees⟩
      intro r hr
      rw [h2] at hr
      exact windowOk_mono (m := m) (by rw [h1]; exact fun x hx => hx) (by rw [h3]; exact fun x hx => hx) (h.window r hr)
    cases e with
    | precert body =>
      simp only
      split
      · exact ⟨hsame _ rfl rfl rfl, fun tr h => h, fun x hx => Or.inl hx⟩
      · rename_i s' hs
        obtain ⟨cert, _, ha, _⟩ := loggerReceive_pool X hs
        obtain ⟨⟨more, hmore⟩, _⟩ := poolExt_add ha
        refine ⟨⟨?_, h.built, h.trees⟩, fun tr h => h, fun x hx => Or.inl ?_⟩
        · intro r hr
          have hw := he r hr
          cases r with
          | list => trivial
          | done => trivial
          | fake t0 certs b => cases hw
          | store t0 certs b f => cases hw
          | sths b todo => cases hw
          | pois b todo => cases hw
          | count => cases hw
          | reset => cases hw
        · show x ∈ s'.pool.certs
          rw [hmore]
          exact List.mem_append_left _ hx
    | request t => exact ⟨hsame _ rfl rfl rfl, fun tr h => h, fun x hx => Or.inl hx⟩
    | timer =>
      refine ⟨⟨?_, ?_, h.trees⟩, fun tr h => h, fun x hx => Or.inl hx⟩
      · intro r hr
        rcases List.mem_append.1 hr with hr | hr
        · exact windowOk_mono (m := m) (fun x hx => hx) (fun x hx => hx) (h.window r hr)
        · rw [List.mem_singleton] at hr; subst hr; trivial
      · intro r hr
        rcases List.mem_append.1 hr with hr | hr
        · exact h.built r hr
        · rw [List.mem_singleton] at hr; subst hr; trivial
    | run i t up =>
      simp only
      split
      · exact ⟨h, fun tr h => h, fun x hx => Or.inl hx⟩
      · rename_i r hr
        have hrm := List.mem_of_getElem? hr
        split
        · exact ⟨hsame _ rfl rfl rfl, fun tr h => h, fun x hx => Or.inl hx⟩
        · rename_i s' new r' hs
          obtain ⟨w1, w2, w3, w4, w5⟩ := window_step X c hs (h.window r hrm) (h.built r hrm) (m.rounds.set i r')
          rw [hd] at w1
          refine ⟨⟨?_, ?_, ?_⟩, fun tr h => List.mem_append_left _ h, w5⟩
          · intro q hq
            rcases List.mem_or_eq_of_mem_set hq with hq | rfl
            · exact windowOk_mono (m := m) w4 (fun tr h => List.mem_append_left _ h) (h.window q hq)
            · exact w1
          · intro q hq
            rcases List.mem_or_eq_of_mem_set hq with hq | rfl
            · exact h.built q hq
            · exact w2
          · intro tr htr
            rcases List.mem_append.1 htr with htr | htr
            · exact h.trees tr htr
            · exact w3 tr htr

theorem noneInWindow_run (h : List LogConcEvent) {m : LogConc} (hm : WindowInv X c m) (hc : NoneInWindow X c m h) :
    WindowInv X c (logConcRun X c m h) ∧ (∀ tr ∈ m.trees, tr ∈ (logConcRun X c m h).trees) ∧
      ∀ x ∈ m.s.pool.getCerts, x ∈ (logConcRun X c m h).s.pool.getCerts ∨ ∃ tr ∈ (logConcRun X c m h).trees, x ∈ tr.1 := by
  induction h generalizing m with
  | nil => exact ⟨hm, fun tr h => h, fun x hx => Or.inl hx⟩
  | cons e r ih =>
    obtain ⟨h1, h2, h3⟩ := noneInWindow_step X c hm e hc.1
    obtain ⟨g1, g2, g3⟩ := ih h1 hc.2
    rw [logConcRun_cons]
    refine ⟨g1, fun tr htr => g2 tr (h2 tr htr), ?_⟩
    intro x hx
    rcases h3 x hx with h | ⟨tr, h, h'⟩
    · exact g3 x h
    · exact Or.inr ⟨tr, g2 tr (h2 tr h), h'⟩

theorem noneInWindow_append (h h' : List LogConcEvent) (m : LogConc) (hc : NoneInWindow X c m (h ++ h')) :
    NoneInWindow X c m h ∧ NoneInWindow X c (logConcRun X c m h) h' := by
  induction h generalizing m with
  | nil => exact ⟨trivial, hc⟩
  | cons e r ih =>
    obtain ⟨h1, h2⟩ := ih (logConcStep X c m e) hc.2
    exact ⟨⟨hc.1, h1⟩, h2⟩

/-- C125, what holds: if no certificate arrives in the window of an end of period, then after any schedule every certificate
that was in the pool at some moment is still in it or is under a tree head the logger has stored. Missing for the full
property: certificates that arrive in a window. -/
theorem C125_calm_none_lost_partial (h h' : List LogConcEvent) (hc : NoneInWindow X c LogConc.init (h ++ h')) (x : Cert)
    (hx : x ∈ (logConcRun X c LogConc.init h).s.pool.getCerts) :
    let m := logConcRun X c LogConc.init (h ++ h')
    x ∈ m.s.pool.getCerts ∨ ∃ tr ∈ m.trees, x ∈ tr.1 ∧ UnderHead X c tr.2 x := by
  have h0 : WindowInv X c LogConc.init :=
    ⟨fun r hr => (by cases hr), fun r hr => (by cases hr), fun r hr => (by cases hr)⟩
  obtain ⟨c1, c2⟩ := noneInWindow_append X c h h' _ hc
  obtain ⟨k1, _, _⟩ := noneInWindow_run X c h h0 c1
  obtain ⟨k2, _, k3⟩ := noneInWindow_run X c h' k1 c2
  rw [logConcRun_append]
  rcases k3 x hx with hx | ⟨tr, htr, hx⟩
  · exact Or.inl hx
  · exact Or.inr ⟨tr, htr, hx, k2.trees tr htr x hx⟩

/-! ### Concrete cases -/

namespace Ref

/-- Every address answers. -/
def allUp : Reach := fun _ => true

/-- `n` steps of the goroutine `i` at second 58. -/
def rounds (i n : Nat) : List LogConcEvent := List.replicate n (.run i at58 allUp)

/-- A name for where a round is. -/
def at? : RoundAt → Nat
  | .list => 0 | .fake .. => 1 | .store .. => 2 | .sths .. => 3 | .pois .. => 4 | .count => 5 | .reset => 6 | .done => 7

/-- Two certificates and the timer; the state in which the theorems below begin. -/
def logBegin : List LogConcEvent := [.precert leafA.raw, .precert leafB.raw, .timer]

def logView (m : LogConc) : Bool × List Nat × List Str × List (List Str) × List Str :=
  (m.dead, m.rounds.map at?, m.s.pool.getCerts.map (·.rawSubject), m.trees.map fun x => x.1.map (·.rawSubject), m.s.sentPOIs.map (·.1))

set_option synthInstance.maxSize 1000 in
/-- The hypotheses of `C125_round_of_first_pool_partial`, `C125_violated_window` and `C126_round_alone_survives_partial`: a
certificate of "Evil" arrives after the pool has been copied, a request too; the round ends, the certificate is nowhere. -/
example :
    logView (logConcRun xlib logConf LogConc.init logBegin) = (false, [0], [leafA.rawSubject, leafB.rawSubject], [], []) ∧
    logView (logConcRun xlib logConf LogConc.init (logBegin ++ rounds 0 3)) =
      (false, [3], [leafA.rawSubject, leafB.rawSubject], [[leafA.rawSubject, leafB.rawSubject]], []) ∧
    logView (logConcRun xlib logConf LogConc.init (logBegin ++ rounds 0 3 ++ [.precert leafE.raw, .request at58] ++ rounds 0 6)) =
      (false, [6], [leafA.rawSubject, leafB.rawSubject, leafE.rawSubject], [[leafA.rawSubject, leafB.rawSubject]],
        [go!"C1", go!"C1"]) ∧
    logView (logConcRun xlib logConf LogConc.init (logBegin ++ rounds 0 3 ++ [.precert leafE.raw, .request at58] ++ rounds 0 7)) =
      (false, [7], [], [[leafA.rawSubject, leafB.rawSubject]], [go!"C1", go!"C1"]) ∧
    xlib.parseCert leafE.raw = some leafE := by
  refine ⟨by decide +kernel, by decide +kernel, by decide +kernel, by decide +kernel, xlaws.createParse _ _ _⟩

set_option synthInstance.maxSize 1000 in
/-- `C126_violated_overlap`: the first round is about to clear the pool, the second has two proofs to post. -/
example :
    logView (logConcRun xlib logConf LogConc.init (logBegin ++ [.timer] ++ rounds 1 5 ++ rounds 0 9)) =
      (false, [6, 4], [leafA.rawSubject, leafB.rawSubject],
        [[leafA.rawSubject, leafB.rawSubject], [leafA.rawSubject, leafB.rawSubject]], [go!"C1", go!"C1"]) ∧
    (logConcRun xlib logConf LogConc.init (logBegin ++ [.timer] ++ rounds 1 5 ++ rounds 0 9 ++ rounds 0 1 ++ rounds 1 1)).dead = true := by
  decide +kernel

set_option synthInstance.maxSize 1000 in
/-- `C125_calm_none_lost_partial`: the certificate of "Evil" arrives after the round; all three are kept. -/
example :
    NoneInWindow xlib logConf LogConc.init (logBegin ++ rounds 0 10 ++ [.precert leafE.raw]) ∧
    logView (logConcRun xlib logConf LogConc.init (logBegin ++ rounds 0 10 ++ [.precert leafE.raw])) =
      (false, [7], [leafE.rawSubject], [[leafA.rawSubject, leafB.rawSubject]], [go!"C1", go!"C1"]) := by
  refine ⟨?_, by decide +kernel⟩
  have hdec : ∀ m : LogConc, (m.rounds.all fun r => !r.window) = true → ∀ r ∈ m.rounds, r.window = false := by
    intro m h r hr
    have := List.all_eq_true.1 h r hr
    simpa using this
  refine ⟨hdec _ (by decide +kernel), hdec _ (by decide +kernel), trivial, trivial, trivial, trivial, trivial, trivial, trivial,
    trivial, trivial, trivial, trivial, hdec _ (by decide +kernel), trivial⟩

set_option synthInstance.maxSize 1000 in
/-- `C126_alone_partial`: a round that nothing comes between, and one whose issuer does not answer. -/
example :
    (loggerRoundVia xlib logConf allUp at58 (logConcRun xlib logConf LogConc.init logBegin).s).map (fun s => (s.onlinePeriod, s.sentPOIs.map (·.1))) =
      some (1, [go!"C1", go!"C1"]) ∧
    (logConcRun xlib logConf LogConc.init (logBegin ++ rounds 0 10)).s.onlinePeriod = 1 ∧
    (loggerRoundVia xlib logConf (fun _ => false) at58 (logConcRun xlib logConf LogConc.init logBegin).s).isNone = true ∧
    (logConcRun xlib logConf LogConc.init (logBegin ++ List.replicate 10 (.run 0 at58 fun _ => false))).dead = true := by
  decide +kernel

end Ref

end CTng
