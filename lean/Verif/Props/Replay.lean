import Verif.Props.Lies
import Verif.Props.LoggerConc
import Verif.Props.GossiperHonest
import Verif.Props.SystemSth
import Verif.Proofs.GossiperObjs
/-
C131: minutes of different hours. C132: the minute of a recorded root.
-/
set_option autoImplicit false

namespace CTng
open Mon Client

/-! ### Time stamps -/

theorem padInt_two_inj {a b : Nat} (ha : a < 100) (hb : b < 100) (h : padInt 2 a = padInt 2 b) : a = b := by
  have h1 := atoi_padInt_two a ha
  rw [h, atoi_padInt_two b hb] at h1
  exact (Option.some.inj h1).symm

/-- Time stamps tell the hours, days and months apart. -/
theorem rfc3339_differ {t t' : Instant} (h : t.hour ≠ t'.hour ∨ t.day ≠ t'.day ∨ t.month ≠ t'.month) : t.rfc3339 ≠ t'.rfc3339 := by
  intro e
  have y := padInt_length 3 t.year t.year_lt
  have y' := padInt_length 3 t'.year t'.year_lt
  have mo := padInt_length 1 t.month (by have := t.month_lt; omega)
  have mo' := padInt_length 1 t'.month (by have := t'.month_lt; omega)
  have d := padInt_length 1 t.day (by have := t.day_lt; omega)
  have d' := padInt_length 1 t'.day (by have := t'.day_lt; omega)
  have hh := padInt_length 1 t.hour (by have := t.hour_lt; omega)
  have hh' := padInt_length 1 t'.hour (by have := t'.hour_lt; omega)
  simp only [Instant.rfc3339, List.append_assoc] at e
  obtain ⟨_, e⟩ := List.append_inj e (by rw [y, y'])
  obtain ⟨_, e⟩ := List.append_inj e rfl
  obtain ⟨e1, e⟩ := List.append_inj e (by rw [mo, mo'])
  obtain ⟨_, e⟩ := List.append_inj e rfl
  obtain ⟨e2, e⟩ := List.append_inj e (by rw [d, d'])
  obtain ⟨_, e⟩ := List.append_inj e rfl
  obtain ⟨e3, _⟩ := List.append_inj e (by rw [hh, hh'])
  have b1 := t.hour_lt; have b1' := t'.hour_lt
  have b2 := t.day_lt; have b2' := t'.day_lt
  have b3 := t.month_lt; have b3' := t'.month_lt
  rcases h with h | h | h
  · exact h (padInt_two_inj (by omega) (by omega) e3)
  · exact h (padInt_two_inj (by omega) (by omega) e2)
  · exact h (padInt_two_inj (by omega) (by omega) e1)

section
variable {L : Lib} {X : XLib}

/-! ### C131 -/

/-- What a tree head says about the instant it was built at. -/
theorem built_stamp (hX : X.Laws) (c : LoggerConf L) (hid : Ascii c.signer) (t : Instant) (certs : List Cert) (n : Nat) (b : Built)
    (hlt : certs.length < 2 ^ 63) (hb : buildMerkle X c t certs n = some b) :
    ∃ raw d, hexDecode b.sth.payload.p1 = some raw ∧ X.decSTH raw = some d ∧ d.timestamp = t.rfc3339 := by
  unfold buildMerkle at hb
  obtain ⟨tree, _, rfl⟩ := Option.map_eq_some_iff.1 hb
  exact ⟨_, _, hexDecode_encode _, hX.sth _ ⟨hid, (instant_ascii t).1, (instant_ascii t).2, Ref.hexEncode_ascii _, hlt⟩, rfl⟩

/-- Two tree heads of a logger with one label and different time stamps convict it. -/
theorem built_conflict (hX : X.Laws) (J : L.JsonLaws) (pub : L.RsaPriv → L.RsaPub) (laws : L.RsaLaws pub) (c : LoggerConf L)
    (hk : CanSign c.crypto.signSecretKey) (hid : Safe c.signer) (hne : c.signer ≠ []) (cc : CryptoConfig L)
    (hc : cc.signScheme = go!"rsa") (hkey : cc.signPublicMap.get c.signer = some (pub c.crypto.signSecretKey))
    (t t' : Instant) (ht : t.rfc3339 ≠ t'.rfc3339) (certs certs' : List Cert) (n : Nat) (b b' : Built)
    (hlt : certs.length < 2 ^ 63) (hlt' : certs'.length < 2 ^ 63)
    (hb : buildMerkle X c t certs n = some b) (hb' : buildMerkle X c t' certs' n = some b') : Conflicting cc b.sth b'.sth := by
  have v1 := C76_tree_heads_verify X c J pub laws hk hid hne cc hc hkey t _ _ b hb
  have v2 := C76_tree_heads_verify X c J pub laws hk hid hne cc hc hkey t' _ _ b' hb'
  obtain ⟨raw, d, g1, g2, g3⟩ := built_stamp hX c (Wire.safe_ascii hid) t _ _ b hlt hb
  obtain ⟨raw', d', g1', g2', g3'⟩ := built_stamp hX c (Wire.safe_ascii hid) t' _ _ b' hlt' hb'
  have hp : b.sth.payload.p1 ≠ b'.sth.payload.p1 := by
    intro e
    rw [e, g1'] at g1
    cases g1
    rw [g2'] at g2
    cases g2
    exact ht (g3.symm.trans g3')
  unfold buildMerkle at hb hb'
  obtain ⟨tree, _, rfl⟩ := Option.map_eq_some_iff.1 hb
  obtain ⟨tree', _, rfl⟩ := Option.map_eq_some_iff.1 hb'
  have hd : ∀ x y : Str, x ≠ y → c.signer ++ x ++ [] ≠ c.signer ++ y ++ [] := by
    intro x y hxy e
    rw [List.append_nil, List.append_nil] at e
    exact hxy (List.append_cancel_left e)
  refine ⟨⟨rfl, .inl rfl⟩, rfl, rfl, rfl, ⟨v1, v2⟩, hd _ _ hp, ?_⟩
  have := sign_differ J pub laws c.crypto.signSecretKey hk c.signer hid _ _ (hd _ _ hp)
  simpa only [List.append_nil, signedText] using this

/-- C131 is false: an honest logger ends a period at minute `m` of one hour and again at minute `m` of another, and a gossiper that
holds the later tree head is posted the earlier one, unaltered (or the other way round). The gossiper convicts the logger, with a
conflict proof that verifies everywhere (or the hash function collides). -/
theorem C131_violated_hour_later (hX : X.Laws) (J : L.JsonLaws) (pub : L.RsaPriv → L.RsaPub) (laws : L.RsaLaws pub) (c : LoggerConf L)
    (hk : CanSign c.crypto.signSecretKey) (hid : Safe c.signer) (hne : c.signer ≠ []) (cf : GConf L) (hT : 0 < cf.crypto.threshold)
    (hc : cf.crypto.signScheme = go!"rsa") (hkey : cf.crypto.signPublicMap.get c.signer = some (pub c.crypto.signSecretKey))
    (t t' : Instant) (hm : t.minute = t'.minute) (ht : t.hour ≠ t'.hour ∨ t.day ≠ t'.day ∨ t.month ≠ t'.month)
    (s s1 s' s1' : LoggerState) (hlt : s.pool.getCerts.length < 2 ^ 63) (hlt' : s'.pool.getCerts.length < 2 ^ 63)
    (h1 : loggerStep X c s (.finish t) = some s1) (h2 : loggerStep X c s' (.finish t') = some s1') :
    ∃ o o', s1.sthStorage.get (loggerNextPeriod t) = some o ∧ s1'.sthStorage.get (loggerNextPeriod t') = some o' ∧ o.payload.p0 = c.signer ∧
      Conflicting cf.crypto o o' ∧
      ∀ g, GReach cf g → HeldAs g.storage o.getID o .STH_INIT → g.blacklist.has c.signer = false → ∀ clk n,
        (gossipObjectHandler cf clk n g o').1.blacklist.has c.signer = true ∨ CollisionIn L.sha256 [signedText o] [signedText o'] := by
  obtain ⟨b, _, _, hb, _, e, _⟩ := loggerRound_fake c h1
  obtain ⟨b', _, _, hb', _, e', _⟩ := loggerRound_fake c h2
  rw [← hm] at hb' e'
  have hv := built_conflict hX J pub laws c hk hid hne cf.crypto hc hkey t t' (rfc3339_differ ht) _ _ _ b b' hlt hlt' hb hb'
  have p0 : b'.sth.payload.p0 = c.signer := by
    unfold buildMerkle at hb'
    obtain ⟨tree, _, rfl⟩ := Option.map_eq_some_iff.1 hb'
    rfl
  have ty : b.sth.type = .STH_INIT := by
    unfold buildMerkle at hb
    obtain ⟨tree, _, rfl⟩ := Option.map_eq_some_iff.1 hb
    rfl
  refine ⟨b.sth, b'.sth, ?_, ?_, hv.entity.trans p0, hv, ?_⟩
  · rw [e, loggerNextPeriod_eq, GoMap.get_set_self]
  · rw [e', loggerNextPeriod_eq, ← hm, GoMap.get_set_self]
  · intro g hg held hnb clk n
    rcases C115_convicts cf hT g hg b.sth b'.sth hv (by rw [ty]; exact held) (by rw [p0]; exact hnb) clk n with ⟨_, _, _, _, h, _⟩ | h
    · left; rw [← p0]; exact h
    · exact .inr h

/-- The tree a goroutine of an end of period has built carries the label of the minute after the one in which it began. -/
def HeadAt (c : LoggerConf L) : RoundAt → Prop
  | .fake t certs b | .store t certs b _ => buildMerkle X c t certs (t.minute + 1) = some b
  | _ => True

/-- What a logger stores and posts are tree heads it built, stored under the minute they were built for. -/
structure HeadsInv (c : LoggerConf L) (m : LogConc) : Prop where
  rounds : ∀ r ∈ m.rounds, HeadAt (X := X) c r
  trees : ∀ tr ∈ m.trees, ∃ t b, buildMerkle X c t tr.1 (t.minute + 1) = some b ∧ tr.2 = b.sth
  stored : ∀ k o, m.s.sthStorage.get k = some o → ∃ t certs b, k = padInt 2 (t.minute + 1) ∧
    buildMerkle X c t certs (t.minute + 1) = some b ∧ o = b.sth ∧ (certs, o) ∈ m.trees

theorem heads_round (c : LoggerConf L) {t : Instant} {up : Reach} {m : LogConc} (h : HeadsInv (X := X) c m) {r r' : RoundAt}
    (hr : HeadAt (X := X) c r) {s' : LoggerState} {new : List (List Cert × GossipObj)}
    (hs : roundStep X c t up m.s r = some (s', new, r')) :
    HeadAt (X := X) c r' ∧ (∀ tr ∈ new, ∃ t b, buildMerkle X c t tr.1 (t.minute + 1) = some b ∧ tr.2 = b.sth) ∧
      ∀ k o, s'.sthStorage.get k = some o → ∃ t certs b, k = padInt 2 (t.minute + 1) ∧
        buildMerkle X c t certs (t.minute + 1) = some b ∧ o = b.sth ∧ (certs, o) ∈ m.trees ++ new := by
  have old : ∀ s'' : LoggerState, s''.sthStorage = m.s.sthStorage → ∀ k o, s''.sthStorage.get k = some o →
      ∃ t certs b, k = padInt 2 (t.minute + 1) ∧ buildMerkle X c t certs (t.minute + 1) = some b ∧ o = b.sth ∧ (certs, o) ∈ m.trees ++ [] := by
    intro s'' e k o ho
    rw [e] at ho
    rw [List.append_nil]
    exact h.stored k o ho
  cases r with
  | list =>
    simp only [roundStep, loggerNextNum_eq] at hs
    split at hs
    · cases hs
    · rename_i b hb
      cases hs
      exact ⟨hb, by simp, old _ rfl⟩
  | fake t0 certs b =>
    simp only [roundStep] at hs
    split at hs
    · cases hs
    · split at hs
      · cases hs
      · cases hs; exact ⟨hr, by simp, old _ rfl⟩
  | store t0 certs b f =>
    simp only [roundStep, loggerNextPeriod_eq, Option.some.injEq, Prod.mk.injEq] at hs
    obtain ⟨rfl, rfl, rfl⟩ := hs
    refine ⟨trivial, ?_, ?_⟩
    · intro tr htr
      rw [List.mem_singleton] at htr
      subst htr
      exact ⟨t0, b, hr, rfl⟩
    · intro k o ho
      simp only [GoMap.get_set] at ho
      split at ho
      · rename_i hk
        cases ho
        exact ⟨t0, certs, b, hk, hr, rfl, by simp⟩
      · obtain ⟨t1, certs1, b1, h1, h2, h3, h4⟩ := h.stored k o ho
        exact ⟨t1, certs1, b1, h1, h2, h3, List.mem_append_left _ h4⟩
  | sths b todo =>
    cases todo with
    | nil => cases hs; exact ⟨trivial, by simp, old _ rfl⟩
    | cons a l =>
      simp only [roundStep, Option.some.injEq, Prod.mk.injEq] at hs
      obtain ⟨rfl, rfl, rfl⟩ := hs
      exact ⟨trivial, by simp, old _ (by split <;> rfl)⟩
  | pois b todo =>
    cases todo with
    | nil => cases hs; exact ⟨trivial, by simp, old _ rfl⟩
    | cons p l =>
      simp only [roundStep] at hs
      split at hs
      · split at hs
        · split at hs
          · split at hs
            · cases hs; exact ⟨trivial, by simp, old _ rfl⟩
            · cases hs
          · cases hs; exact ⟨trivial, by simp, old _ rfl⟩
        · cases hs
      · cases hs; exact ⟨trivial, by simp, old _ rfl⟩
  | count => cases hs; exact ⟨trivial, by simp, old _ rfl⟩
  | reset => cases hs; exact ⟨trivial, by simp, old _ rfl⟩
  | done => cases hs; exact ⟨trivial, by simp, old _ rfl⟩

theorem heads_step (c : LoggerConf L) {m : LogConc} (h : HeadsInv (X := X) c m) (e : LogConcEvent) :
    HeadsInv (X := X) c (logConcStep X c m e) := by
  unfold logConcStep
  cases hd : m.dead with
  | true => exact h
  | false =>
    simp only [Bool.false_eq_true, if_false]
    cases e with
    | precert body =>
      simp only
      split
      · exact ⟨h.rounds, h.trees, h.stored⟩
      · rename_i s' hs
        refine ⟨h.rounds, h.trees, ?_⟩
        have : s'.sthStorage = m.s.sthStorage := by
          unfold loggerReceive at hs
          split at hs
          · cases hs
          · split at hs
            · cases hs; rfl
            · cases hs
        rw [this]; exact h.stored
    | request t => exact ⟨h.rounds, h.trees, h.stored⟩
    | timer =>
      refine ⟨?_, h.trees, h.stored⟩
      intro r hr
      rcases List.mem_append.1 hr with hr | hr
      · exact h.rounds r hr
      · rw [List.mem_singleton] at hr; subst hr; trivial
    | run i t up =>
      simp only
      split
      · exact h
      · rename_i r hr
        split
        · exact ⟨h.rounds, h.trees, h.stored⟩
        · rename_i s' new r' hs
          obtain ⟨w1, w2, w3⟩ := heads_round c h (h.rounds r (List.mem_of_getElem? hr)) hs
          refine ⟨?_, ?_, w3⟩
          · intro q hq
            rcases List.mem_or_eq_of_mem_set hq with hq | rfl
            · exact h.rounds q hq
            · exact w1
          · intro tr htr
            rcases List.mem_append.1 htr with htr | htr
            · exact h.trees tr htr
            · exact w2 tr htr

theorem heads_reach (c : LoggerConf L) {m : LogConc} (h : LogReach X c m) : HeadsInv (X := X) c m := by
  obtain ⟨es, rfl⟩ := h
  have key : ∀ (es : List LogConcEvent) (m : LogConc), HeadsInv (X := X) c m → HeadsInv (X := X) c (logConcRun X c m es) := by
    intro es
    induction es with
    | nil => intro m h; exact h
    | cons e r ih => intro m h; rw [logConcRun_cons]; exact ih _ (heads_step c h e)
  refine key es _ ⟨?_, ?_, ?_⟩
  · intro r hr; cases hr
  · intro r hr; cases hr
  · intro k o ho; cases ho

theorem head_fields (c : LoggerConf L) {t : Instant} {certs : List Cert} {n : Nat} {b : Built} (hb : buildMerkle X c t certs n = some b) :
    b.sth.type = .STH_INIT ∧ b.sth.payload.p0 = c.signer ∧ b.sth.signer = c.signer ∧ b.sth.period = itoa n ∧ b.sth.timestamp = t.rfc3339 := by
  unfold buildMerkle at hb
  obtain ⟨tree, _, rfl⟩ := Option.map_eq_some_iff.1 hb
  exact ⟨rfl, rfl, rfl, rfl, rfl⟩

/-- C131 fails without anybody replaying anything, too: an honest logger still serves the tree head of the hour before while it
builds the new one, if that takes until the next minute. Two monitors that ask in one minute, before and after the store, get a split
view. -/
theorem C131_violated_late_build (hX : X.Laws) (J : L.JsonLaws) (pub : L.RsaPriv → L.RsaPub) (laws : L.RsaLaws pub) (c : LoggerConf L)
    (htype : c.loggerType = 0) (hk : CanSign c.crypto.signSecretKey) (hid : Safe c.signer) (hne : c.signer ≠ []) (cc : CryptoConfig L)
    (hc : cc.signScheme = go!"rsa") (hkey : cc.signPublicMap.get c.signer = some (pub c.crypto.signSecretKey))
    (m : LogConc) (hm : LogReach X c m) (hd : m.dead = false) (i : Nat) (t0 : Instant) (certs : List Cert) (b f : Built)
    (hi : m.rounds[i]? = some (.store t0 certs b f)) (o : GossipObj) (ho : m.s.sthStorage.get (loggerNextPeriod t0) = some o)
    (hstamp : o.timestamp ≠ t0.rfc3339) (hlt : certs.length < 2 ^ 63) (hlt' : ∀ tr ∈ m.trees, tr.1.length < 2 ^ 63)
    (t t' : Instant) (ht' : t'.minute = t0.minute + 1) (up : Reach) :
    (requestSTH c t' m.s).1 = .obj o ∧ (requestSTH c t' (logConcStep X c m (.run i t up)).s).1 = .obj b.sth ∧
      Conflicting cc o b.sth := by
  have H := heads_reach c hm
  have hb := H.rounds _ (List.mem_of_getElem? hi)
  obtain ⟨t1, certs1, b1, hk1, hb1, rfl, htr⟩ := H.stored _ _ ho
  rw [loggerNextPeriod_eq] at hk1
  have hmin : t0.minute + 1 = t1.minute + 1 :=
    padInt_two_inj (by have := t0.minute_lt; omega) (by have := t1.minute_lt; omega) hk1
  have hmin' : t1.minute = t0.minute := by omega
  rw [hmin'] at hb1
  have hreq : ∀ s : LoggerState, (requestSTH c t' s).1 = .obj ((s.sthStorage.get (padInt 2 (t0.minute + 1))).getD GossipObj.zero) := by
    intro s
    simp only [requestSTH, htype, decide6, readObj, period_eq_padInt, ht']
  refine ⟨?_, ?_, ?_⟩
  · rw [hreq, ← loggerNextPeriod_eq, ho]; rfl
  · rw [hreq]
    have : (logConcStep X c m (.run i t up)).s.sthStorage = m.s.sthStorage.set (loggerNextPeriod t0) b.sth := by
      simp only [logConcStep, hd, hi, roundStep, Bool.false_eq_true, if_false]
    rw [this, loggerNextPeriod_eq, GoMap.get_set_self]; rfl
  · rw [(head_fields c hb1).2.2.2.2] at hstamp
    exact built_conflict hX J pub laws c hk hid hne cc hc hkey t1 t0 hstamp _ _ _ b1 b (hlt' _ htr) hlt hb1 hb

/-- C131, what holds: if no two tree heads of an honest logger carry the same label (that is, within an hour), a gossiper that is
posted no other tree head of the logger, no revocation naming it and no conflict proof naming it holds no conflict proof naming it,
and has it blacklisted only on a full accusation. Missing: labels come again after an hour. -/
theorem C131_one_hour_partial (c : LoggerConf L) (hne : c.signer ≠ []) (m : LogConc) (hm : LogReach X c m)
    (hlabel : m.trees.Pairwise fun a b => a.2.period ≠ b.2.period) (cf : GConf L) (h : History)
    (hsth : ∀ g, Delivered h g → g.type = .STH_INIT → g.payload.p0 = c.signer → ∃ tr ∈ m.trees, tr.2 = g)
    (hrev : ∀ g, Delivered h g → g.type = .REV_INIT → g.payload.p0 ≠ c.signer)
    (hcon : ∀ g, Delivered h g → g.type = .CON_INIT → g.payload.p0 ≠ c.signer) :
    (∀ k o, HeldAs (crun cf CState.init h).g.storage k o .CON_INIT → o.payload.p0 ≠ c.signer) ∧
    ((crun cf CState.init h).g.blacklist.has c.signer = true → ∃ a, a.type = .ACC_FULL ∧ a.payload.p0 = c.signer ∧
      a.verify cf.crypto = .ok ∧ WasStored cf h a) := by
  have H := heads_reach c hm
  have huniq : ∀ (l : List (List Cert × GossipObj)), l.Pairwise (fun a b => a.2.period ≠ b.2.period) → ∀ a ∈ l, ∀ b ∈ l,
      a.2.period = b.2.period → a = b := by
    intro l
    induction l with
    | nil => intro _ a ha; cases ha
    | cons z r ih =>
      intro hp a ha b hb e
      rw [List.pairwise_cons] at hp
      rcases List.mem_cons.1 ha with ha' | ha' <;> rcases List.mem_cons.1 hb with hb' | hb'
      · rw [ha', hb']
      · exact absurd (ha' ▸ e) (hp.1 b hb')
      · exact absurd (hb' ▸ e.symm) (hp.1 a ha')
      · exact ih hp.2 a ha' b hb' e
  refine C19_consistent_entity_not_convicted_partial cf h c.signer hne ⟨hcon, ?_, ?_⟩
  · intro g hg ht hp
    rcases ht with ht | ht
    · obtain ⟨tr, htr, rfl⟩ := hsth g hg ht hp
      obtain ⟨t, b, hb, e⟩ := H.trees tr htr
      rw [e, (head_fields c hb).2.2.1]; exact hne
    · exact absurd hp (hrev g hg ht)
  · intro g g' hg hg' ht ht' hp hp' hper
    rcases ht with ht | ht
    · obtain ⟨tr, htr, rfl⟩ := hsth g hg ht hp
      obtain ⟨tr', htr', rfl⟩ := hsth g' hg' (ht'.trans ht) hp'
      rw [huniq _ hlabel tr' htr' tr htr hper]
    · exact absurd hp (hrev g hg ht)

/-! ### C132 -/

/-- The object is about a tree head. -/
def IsHead (g : GossipObj) : Prop := g.type = .STH_INIT ∨ g.type = .STH_FRAG ∨ g.type = .STH_FULL

/-- The gossiper has no tree head, signature on one or handler under way: after start-up, or after a wipe that found it at rest. -/
structure NoHeads (c : CState) : Prop where
  stored : ∀ k, c.g.storage.sthInit.get k = none ∧ c.g.storage.sthFull.get k = none ∧ c.g.storage.fragList .STH_FRAG k = []
  timers : ∀ g ∈ c.g.timers, g.type ≠ .STH_INIT
  idle : ∀ t ∈ c.threads, t.frames = []

theorem labelClosed (cf : GConf L) (p : Str) (Lab : Pay3 → Prop) :
    ObjClosed cf (fun g => IsHead g → g.period = p ∧ Lab g.payload) (fun _ => True) (fun clk => clk.period = p) where
  zero := by intro h; rcases h with h | h | h <;> cases h
  payload := by intro g o hr _ _ h; rcases h with h | h | h <;> (rw [show g.type = _ from h] at hr; cases hr)
  remove := by intro g hr _ h; rcases h with h | h | h <;> (rw [show g.type = _ from h] at hr; cases hr)
  con := by intro clk o1 o2 _ _ _ h; rcases h with h | h | h <;> cases h
  frag := by
    intro g f hg hf h
    have hs : IsHead g := by
      have ht := generateFRAG_type hf
      unfold IsHead at h ⊢
      cases hg : g.type <;> simp [hg] at ht <;> simp [ht] at h ⊢
    unfold generateFRAG at hf
    split at hf
    · cases hf
    · cases hf; exact hg hs
  full := by
    intro clk gs t o hk hgs ht ho h
    have e := generateFULL_type ho
    obtain ⟨f, hf, hp⟩ := generateFULL_payload ho
    obtain ⟨h1, h2⟩ := hgs f hf
    have hs : IsHead f := by
      unfold IsHead at h ⊢
      unfold GossipObj.getTargetType at h2
      rw [e] at h
      cases hf : f.type <;> simp [hf] at h2 <;> subst h2 <;> simp at h ⊢
    refine ⟨?_, by rw [hp]; exact (h1 hs).2⟩
    unfold generateFULL at ho
    split at ho
    · cases ho
    · cases ho
    · split at ho
      · cases ho; exact hk
      · cases ho
  notif := fun _ _ => trivial
  ask := fun _ _ => trivial

/-- C132 at a gossiper, what holds: from a moment at which it has no tree heads, under every schedule: if its clock shows the minute
`p` all along and every tree head and every signature on one that it is posted is dated `p` and has the property `Lab` (that it was
labelled `p` by its logger, say), then so does every completely signed tree head it hands to its monitor. Missing: nothing keeps
posts of another minute out, and the result is dated with the minute it was completed in. -/
theorem C132_same_minute_partial (cf : GConf L) (p : Str) (Lab : Pay3 → Prop) (h0 h : History) (hs : NoHeads (crun cf CState.init h0))
    (hclk : ∀ e ∈ h, e.1.period = p) (hrecv : ∀ clk n g, (clk, .recv n g) ∈ h → IsHead g → g.period = p ∧ Lab g.payload)
    (g : GossipObj) (hg : .owner g ∈ (crun cf CState.init (h0 ++ h)).g.out) (hold : .owner g ∉ (crun cf CState.init h0).g.out)
    (ht : g.type = .STH_FULL) : g.period = p ∧ Lab g.payload := by
  have H0 := ((mainInv cf).holds cf h0).1
  have hstart : CHas (fun g => IsHead g → g.period = p ∧ Lab g.payload) (fun _ => True) (· ∈ (crun cf CState.init h0).g.out)
      (crun cf CState.init h0) := by
    refine ⟨⟨⟨?_, ?_, ?_⟩, ?_, fun o ho => .inl ho⟩, fun t ht f hf => by rw [hs.idle t ht] at hf; cases hf⟩
    · intro t k o ho hh
      have e : o.type = t := (H0.storage.objs t k o ho).2.1
      rcases hh with hh | hh | hh <;> (rw [hh] at e; subst e)
      · exact absurd ho (by rw [show ((crun cf CState.init h0).g.storage.objs .STH_INIT).get k = none from (hs.stored k).1]; simp)
      · cases ho
      · exact absurd ho (by rw [show ((crun cf CState.init h0).g.storage.objs .STH_FULL).get k = none from (hs.stored k).2.1]; simp)
    · intro t k o ho
      have e : o.type = t := (H0.storage.frags t k o ho).2
      refine ⟨fun hh => ?_, e⟩
      rcases hh with hh | hh | hh <;> (rw [hh] at e; subst e)
      · cases ho
      · rw [(hs.stored k).2.2] at ho; cases ho
      · cases ho
    · intro k o ho hh
      have e : o.type = .REV_INIT := (H0.storage.payload k o ho).2.1
      rcases hh with hh | hh | hh <;> (rw [hh] at e; cases e)
    · intro g hg
      refine ⟨(H0.timers g hg).1, fun hh => ?_⟩
      rcases hh with hh | hh | hh
      · exact absurd hh (hs.timers g hg)
      · rcases (H0.timers g hg).1 with e | e <;> (rw [hh] at e; cases e)
      · rcases (H0.timers g hg).1 with e | e <;> (rw [hh] at e; cases e)
  have hrun := hstart.crun cf (labelClosed cf p Lab) h fun e he => ⟨hclk e he, by
    obtain ⟨clk, ev⟩ := e
    cases ev with
    | recv n g => exact hrecv clk n g he
    | _ => trivial⟩
  rw [show crun cf CState.init (h0 ++ h) = crun cf (crun cf CState.init h0) h by simp [crun]] at hg
  rcases hrun.state.out _ hg with h1 | h1
  · exact absurd h1 hold
  · exact h1 (.inr (.inr ht))

/-- C132 at monitors and clients, what holds: what an accepted update of a monitor adds to a client's roots are the roots of the
completely signed tree heads delivered to the monitor, each under the minute of its date. -/
theorem C132_clients_partial (c : MonConf L) (Lab : Str → Pay3 → Prop) (evs : List MonEvent) (u : ClientUpdate) (hu : Published X c evs u)
    (hd : ∀ e ∈ evs, ∀ g : GossipObj, Delivers e g → g.type = .STH_FULL → Lab g.period g.payload) (cc : CryptoConfig L) (v : Bool)
    (st st' : ClientState) (hacc : handleUpdate X cc v u st = (.accepted, st')) (k r : Str) (hr : st'.sthDB.get k = some r) :
    st.sthDB.get k = some r ∨
      ∃ g d, k = g.payload.p0 ++ go!"@" ++ g.period ∧ treeInfo X g = some d ∧ r = d.rootHash ∧ Lab g.period g.payload := by
  obtain ⟨_, hp, rfl⟩ := (C50_accepted_iff X cc v u st st').1 hacc
  have key : ∀ (l : List GossipObj) (db : GoMap Str Str), (∀ g ∈ l, (treeInfo X g).isSome = true) →
      (l.foldl (recordSTH X) db).get k = some r → db.get k = some r ∨
        ∃ g ∈ l, ∃ d, k = g.payload.p0 ++ go!"@" ++ g.period ∧ treeInfo X g = some d ∧ r = d.rootHash := by
    intro l
    induction l with
    | nil => intro db _ h; exact .inl h
    | cons a t ih =>
      intro db hs h
      rcases ih _ (fun g hg => hs g (by simp [hg])) h with h1 | ⟨g, hg, d, h1⟩
      · unfold recordSTH at h1
        rw [GoMap.get_set] at h1
        split at h1
        · rename_i hk
          obtain ⟨d, hd⟩ := Option.isSome_iff_exists.1 (hs a (by simp))
          rw [hd] at h1
          exact .inr ⟨a, by simp, d, hk, hd, (Option.some.inj h1).symm⟩
        · exact .inl h1
      · exact .inr ⟨g, by simp [hg], d, h1⟩
  rcases key u.sths st.sthDB (fun g hg => (hp.sths g hg).2) hr with h | ⟨g, hg, d, h1, h2, h3⟩
  · exact .inl h
  · obtain ⟨ht, e, he, hde⟩ := sths_delivered hu hg
    exact .inr ⟨g, d, h1, h2, h3, hd e he g hde ht⟩

end

namespace Ref

/-- An hour after `at58`. -/
def later58 : Instant := { at58 with hour := (at58.hour + 1) % 24, hour_lt := Nat.mod_lt _ (by decide) }

/-- L1 ends minute 58 with two certificates, and, an hour later, with two. -/
def hours : List LogConcEvent :=
  logBegin ++ rounds 0 10 ++ [.precert leafA.raw, .precert leafE.raw, .timer] ++
  List.replicate 2 (.run 1 later58 allUp)

def hoursAt (n : Nat) : LogConc := logConcRun xlib logConf LogConc.init (hours.take n)

/-- Where the goroutine `i` is about to store its tree heads. -/
def atStore (m : LogConc) (i : Nat) : Option (Instant × List Cert × Built × Built) :=
  match m.rounds[i]? with
  | some (.store t certs b f) => some (t, certs, b, f)
  | _ => none

theorem atStore_some {m : LogConc} {i : Nat} {t : Instant} {certs : List Cert} {b f : Built} (h : atStore m i = some (t, certs, b, f)) :
    m.rounds[i]? = some (.store t certs b f) := by
  unfold atStore at h
  split at h
  · rename_i hr; cases h; exact hr
  · cases h

set_option synthInstance.maxSize 1000 in
/-- The second tree head is about to be stored, the one of the hour before is still served in minute 59. -/
example : ((atStore (hoursAt 18) 1).map fun x => (x.1.rfc3339, x.2.1.length)) = some (go!"2024-01-01T11:58:40Z", 2) ∧
    ((hoursAt 18).s.sthStorage.get (padInt 2 59)).map (·.timestamp) = some (go!"2024-01-01T10:58:40Z") ∧ (hoursAt 18).dead = false ∧
    ((hoursAt 18).trees.all fun tr => decide (tr.1.length < 3)) = true := by decide +kernel

/-- The two requests of minute 59. -/
example : ∃ (b : Built) (o : GossipObj), (requestSTH logConf at59 (hoursAt 18).s).1 = .obj o ∧
    (requestSTH logConf at59 (logConcStep xlib logConf (hoursAt 18) (.run 1 at59 allUp)).s).1 = .obj b.sth ∧
    Conflicting (conf (go!"G1")) o b.sth := by
  have h : (atStore (hoursAt 18) 1).map (fun x => (x.1.rfc3339, x.1.minute, x.2.1.length)) = some (go!"2024-01-01T11:58:40Z", 58, 2) := by
    decide +kernel
  obtain ⟨⟨t, certs, b, f⟩, hr, hx⟩ := Option.map_eq_some_iff.1 h
  simp only [Prod.mk.injEq] at hx
  have h' : ((hoursAt 18).s.sthStorage.get (padInt 2 59)).map (·.timestamp) = some (go!"2024-01-01T10:58:40Z") := by decide +kernel
  obtain ⟨o, ho, hs⟩ := Option.map_eq_some_iff.1 h'
  refine ⟨b, o, C131_violated_late_build (pub := rsaPub) xlaws jsonLaws rsaLaws logConf rfl (fun d => ⟨_, rfl⟩) (by unfold Safe; decide) (by decide) _ rfl rfl
    (hoursAt 18) ⟨_, rfl⟩ (by decide +kernel) 1 t certs b f (atStore_some hr) o ?_ ?_ (by rw [hx.2.2]; decide) ?_ at59 at59 (by rw [hx.2.1]; rfl) allUp⟩
  · rw [loggerNextPeriod_eq, hx.2.1]; exact ho
  · rw [hs, hx.1]; decide +kernel
  · intro tr htr
    have : ((hoursAt 18).trees.all fun tr => decide (tr.1.length < 3)) = true := by decide +kernel
    have := of_decide_eq_true (List.all_eq_true.1 this tr htr)
    omega

/-- L1's tree head of minute 6. -/
def headPay6 : Pay3 := ⟨go!"L1", hexEncode (xlib.encSTH ⟨go!"L1", go!"u", go!"06", go!"rootB", 9⟩), go!"9"⟩
def headSth6 : GossipObj :=
  { sth with period := go!"06", payload := headPay6, sig := ⟨rsaStr (go!"L1") (headPay6.p0 ++ headPay6.p1 ++ headPay6.p2), []⟩ }

/-- After the tree head of minute 5 has been signed in minute 6, both monitors get the one of minute 6; the gossipers exchange it, sign
it and exchange what they signed, still in minute 6; everything posted to the monitors arrives. -/
def headNext : List SysEvent :=
  headSlow ++ [.mon (go!"G1") (.query clk06), .mon (go!"G1") (.answer 1 (.obj headSth6)),
    .mon (go!"G2") (.query clk06), .mon (go!"G2") (.answer 0 (.obj headSth6)), .arrive 0 clk06, .arrive 0 clk06] ++
  ((nruns (go!"G1") 5 20 ++ nruns (go!"G2") 4 20 ++ [.deliver 0 clk, .deliver 0 clk] ++ nruns (go!"G1") 6 20 ++ nruns (go!"G2") 5 20 ++
    [.node (go!"G1") (clk, .fire 0), .node (go!"G2") (clk, .fire 0)] ++ nruns (go!"G1") 7 20 ++ nruns (go!"G2") 6 20 ++
    [.deliver 0 clk, .deliver 0 clk] ++ nruns (go!"G1") 8 20 ++ nruns (go!"G2") 7 20 ++
    [.deliver 0 clk, .deliver 0 clk] ++ nruns (go!"G1") 9 20 ++ nruns (go!"G2") 8 20 : List NEvent).map fun e => SysEvent.net (e.atClk clk06)) ++
  List.replicate 2 (.arrive 0 clk06)

/-- Everything has been done, nothing is under way, no timer is armed. -/
example : quietCheck mesh (sysRun xlib sysConf Sys.init headNext).net = true ∧ (sysRun xlib sysConf Sys.init headNext).posts = [] ∧
    (mesh.ids.all fun x => ((sysRun xlib sysConf Sys.init headNext).net.node x).g.timers.isEmpty) = true := by decide +kernel

/-- The roots of an update of one tree head. -/
theorem one_head {g : GossipObj} {u : ClientUpdate} {pay : Pay3} {per : Str} (hu : u.sths = [g]) (hg : (g.payload, g.period) = (pay, per))
    (db : GoMap Str Str) :
    (u.sths.foldl (recordSTH xlib) db).get (pay.p0 ++ go!"@" ++ per) =
      some (((xlib.decSTH (hexPrefix pay.p1)).map (·.rootHash)).getD []) := by
  simp only [Prod.mk.injEq] at hg
  rw [hu]
  simp only [List.foldl_cons, List.foldl_nil, recordSTH, treeInfo, hg.1, hg.2, GoMap.get_set_self]

end Ref

open Ref in
/-- C132 is false, though all gossipers, monitors and the logger follow the code: L1 shows its tree head of minute 5, the gossipers
sign it in minute 6. L1 then shows its tree head of minute 6 to both monitors, both gossipers hold it and both signatures on it before
minute 6 is over. Yet every client that accepts the update either monitor publishes at the end of minute 6 has recorded L1's root of
minute 5 as the one of minute 6, and does not accept the certificates that carry L1's tree head of minute 6. New clients accept the
update. -/
theorem C132_violated_next_minute :
    headSth.getID = ⟨go!"05", .STH_INIT, go!"L1"⟩ ∧ headSth6.getID = ⟨go!"06", .STH_INIT, go!"L1"⟩ ∧
    ∀ z ∈ mesh.ids,
      (∃ i e, e ∈ monHist xlib sysConf z Sys.init headNext ∧ e = .answer i (.obj headSth6)) ∧
      ((sysRun xlib sysConf Sys.init headNext).net.node z).g.storage.sthInit.get headSth6.getID = some headSth6 ∧
      (∀ x ∈ mesh.ids, ∃ f ∈ (((sysRun xlib sysConf Sys.init headNext).net.node z).g.storage.sthFrag.get
        ⟨go!"06", .STH_FRAG, go!"L1"⟩).getD [], f.signer = x ∧ f.payload = headSth6.payload ∧ f.verify (mesh.conf z).crypto = .ok) ∧
      ∃ m m' u, (sysRun xlib sysConf Sys.init headNext).mon z = some m ∧ monStep xlib (sysConf.mon z) m (.finish clk06) = some m' ∧
        m'.files.get (periodIO (sysConf.mon z) clk06) = some u ∧
        (∀ (cc : CryptoConfig lib) v st st', handleUpdate xlib cc v u st = (.accepted, st') →
          (treeInfo xlib headSth).map (·.rootHash) = st'.sthDB.get (go!"L1@06") ∧
          ∀ cert, (∀ e ∈ (cert.parseExt xlib).loggers, e.sth = headSth6) → verifyCTngExt xlib cc st' cert ≠ .accept) ∧
        (handleUpdate xlib m1 true u initClient).1 = .accepted := by
  refine ⟨by decide +kernel, by decide +kernel, fun z hz => ⟨?_, ?_, ?_, ?_⟩⟩
  · rcases mem_mesh hz with rfl | rfl
    · exact ⟨1, by decide +kernel⟩
    · exact ⟨0, by decide +kernel⟩
  · rcases mem_mesh hz with rfl | rfl <;> decide +kernel
  · intro x hx
    rcases mem_mesh hz with rfl | rfl <;> rcases mem_mesh hx with rfl | rfl <;> decide +kernel
  · have h : ((sysRun xlib sysConf Sys.init headNext).mon z).bind (fun m =>
        ((endPeriod xlib (sysConf.mon z) clk06 m).files.get (periodIO (sysConf.mon z) clk06)).map fun u =>
          (u.sths.map fun g => (g.payload, g.period), (handleUpdate xlib m1 true u initClient).1)) =
        some ([(headPay, go!"06")], .accepted) := by
      rcases mem_mesh hz with rfl | rfl <;> decide +kernel
    obtain ⟨m, hm, h1⟩ := Option.bind_eq_some_iff.1 h
    obtain ⟨u, hu, h2⟩ := Option.map_eq_some_iff.1 h1
    simp only [Prod.mk.injEq] at h2
    refine ⟨m, _, u, hm, rfl, hu, fun cc v st st' hacc => ?_, h2.2⟩
    obtain ⟨_, _, rfl⟩ := (C50_accepted_iff xlib cc v u st st').1 hacc
    obtain ⟨g, t, hs, hg, ht⟩ := List.map_eq_cons_iff.1 h2.1
    rw [List.map_eq_nil_iff.1 ht] at hs
    have hdb : (u.sths.foldl (recordSTH xlib) st.sthDB).get (go!"L1@06") = some (go!"rootA") :=
      (one_head hs hg st.sthDB).trans (by decide +kernel)
    refine ⟨(show _ = some (go!"rootA") by decide +kernel).trans hdb.symm, fun cert hall hcert => ?_⟩
    obtain ⟨⟨e, he, _, _, d, hd1, hd2, _⟩, _⟩ := C51_accepted_partial xlib cc _ cert hcert
    rw [hall e he] at hd1 hd2
    have hd2' : ((u.sths.foldl (recordSTH xlib) st.sthDB).get (go!"L1@06")).getD [] = d.rootHash := hd2
    rw [hdb] at hd2'
    have hr : (treeInfo xlib headSth6).map (·.rootHash) = some (go!"rootB") := by decide +kernel
    rw [hd1] at hr
    have : d.rootHash = go!"rootB" := Option.some.inj hr
    rw [this] at hd2'
    cases hd2'

namespace Ref

/-- The tree head L1 builds at `t`, from the two certificates posted before. -/
def madeHead (t : Instant) (x y : Cert) : GossipObj :=
  (((loggerRun xlib logConf initLogger [.precert x.raw, .precert y.raw, .finish t]).bind fun s =>
    s.sthStorage.get (loggerNextPeriod t))).getD GossipObj.zero

set_option synthInstance.maxSize 1000 in
/-- The hypotheses of `C131_violated_hour_later` and its conclusion: the round succeeds at both times, G1 holds the later tree head and
convicts L1 when it is posted the earlier one. -/
example : at58.minute = later58.minute ∧ at58.hour ≠ later58.hour ∧
    (loggerRun xlib logConf initLogger [.precert leafA.raw, .precert leafB.raw, .finish at58]).isSome = true ∧
    (loggerRun xlib logConf initLogger [.precert leafA.raw, .precert leafE.raw, .finish later58]).isSome = true ∧
    (let g := grun (mesh.conf (go!"G1")) GState.init [(clk, .recv 10 (madeHead later58 leafA leafE))]
     (g.storage.sthInit.get (madeHead at58 leafA leafB).getID = some (madeHead later58 leafA leafE), g.blacklist.has (go!"L1"),
      (gossipObjectHandler (mesh.conf (go!"G1")) clk 10 g (madeHead at58 leafA leafB)).1.blacklist.has (go!"L1"))) = (True, false, true) := by
  refine ⟨by decide, by decide, by decide +kernel, by decide +kernel, ?_⟩
  simp only [Prod.mk.injEq, eq_iff_iff, iff_true]
  decide +kernel

/-- The hypotheses of `C131_one_hour_partial`: one round, its tree head posted to G1 twice. -/
example : ((hoursAt 13).trees.map (·.2)) = [madeHead at58 leafA leafB] ∧ (hoursAt 13).dead = false ∧
    (madeHead at58 leafA leafB).type = .STH_INIT := by decide +kernel

example (h : History)
    (hh : h = [(clk, .recv 10 (madeHead at58 leafA leafB)), (clk, .recv 10 (madeHead at58 leafA leafB))] ++
      List.replicate 20 (clk, .run 0) ++ List.replicate 20 (clk, .run 1)) :
    ∀ k o, HeldAs (crun (mesh.conf (go!"G1")) CState.init h).g.storage k o .CON_INIT → o.payload.p0 ≠ go!"L1" := by
  have ht : (hoursAt 13).trees.map (·.2) = [madeHead at58 leafA leafB] := by decide +kernel
  have hty : (madeHead at58 leafA leafB).type = .STH_INIT := by decide +kernel
  obtain ⟨tr, r, e1, e2, e3⟩ := List.map_eq_cons_iff.1 ht
  rw [List.map_eq_nil_iff.1 e3] at e1
  have hdel : ∀ g, Delivered h g → g = madeHead at58 leafA leafB := by
    rintro g ⟨c, n, hg⟩
    rw [hh] at hg
    simp only [List.mem_append, List.mem_cons, List.mem_replicate, List.not_mem_nil, or_false] at hg
    rcases hg with (⟨h | h⟩ | ⟨_, h⟩) | ⟨_, h⟩ <;> cases h
    · rfl
    · rfl
  exact (C131_one_hour_partial logConf (by decide) (hoursAt 13) ⟨_, rfl⟩ (by rw [e1]; simp) (mesh.conf (go!"G1")) h
    (fun g hg _ _ => ⟨tr, by rw [e1]; simp, e2.trans (hdel g hg).symm⟩)
    (fun g hg h1 => by rw [hdel g hg, hty] at h1; cases h1) (fun g hg h1 => by rw [hdel g hg, hty] at h1; cases h1)).1

/-- G2's signature on the tree head of minute 5. -/
def headFragG2 : GossipObj :=
  (((((sysRun xlib sysConf Sys.init (headDone clk 0 headSth)).net.node (go!"G2")).g.storage.sthFrag.get
    ⟨go!"05", .STH_FRAG, go!"L1"⟩).getD []).find? fun f => f.signer == go!"G2").getD GossipObj.zero

/-- The hypotheses of `C132_same_minute_partial`, in minute 5: G1 is posted the tree head, signs it, gets the signature of G2 and hands
the result to its monitor. -/
def sameMinute : History :=
  [(clk, .recv 10 headSth)] ++ List.replicate 20 (clk, .run 0) ++ [(clk, .fire 0)] ++ List.replicate 20 (clk, .run 1) ++
  [(clk, .recv 10 headFragG2)] ++ List.replicate 20 (clk, .run 2)

theorem sameMinute_owner : ∃ g, .owner g ∈ (crun (mesh.conf (go!"G1")) CState.init sameMinute).g.out ∧ g.type = .STH_FULL := by
  have h : (crun (mesh.conf (go!"G1")) CState.init sameMinute).g.out.any (fun o => match o with
      | .owner g => g.type == .STH_FULL | _ => false) = true := by decide +kernel
  generalize (crun (mesh.conf (go!"G1")) CState.init sameMinute).g.out = l at h ⊢
  obtain ⟨o, ho, h1⟩ := List.any_eq_true.1 h
  cases o with
  | owner g => exact ⟨g, ho, eq_of_beq h1⟩
  | _ => cases h1

/-- Every tree head G1 hands to its monitor is the one of minute 5, dated minute 5. -/
example (g : GossipObj) (hg : .owner g ∈ (crun (mesh.conf (go!"G1")) CState.init sameMinute).g.out) (ht : g.type = .STH_FULL) :
    g.period = go!"05" ∧ g.payload = headPay := by
  refine C132_same_minute_partial (mesh.conf (go!"G1")) (go!"05") (· = headPay) [] sameMinute
    ⟨fun k => ⟨rfl, rfl, rfl⟩, fun g hg => (by cases hg), fun t ht => (by cases ht)⟩ ?_ ?_ g ?_ List.not_mem_nil ht
  · have h : (sameMinute.all fun e => e.1.period == go!"05") = true := by decide +kernel
    exact fun e he => eq_of_beq (List.all_eq_true.1 h e he)
  · have h : (sameMinute.all fun e => match e.2 with
        | .recv _ q => q.period == go!"05" && q.payload == headPay
        | _ => true) = true := by decide +kernel
    intro c n q hq _
    have := List.all_eq_true.1 h _ hq
    rw [Bool.and_eq_true] at this
    exact ⟨eq_of_beq this.1, eq_of_beq this.2⟩
  · rw [List.nil_append]; exact hg

/-- The hypotheses of `C132_clients_partial`: the update of G2's monitor at the end of minute 5, with the tree head of minute 5. -/
example : ∃ u st', Published xlib (sysConf.mon (go!"G2")) (monHist xlib sysConf (go!"G2") Sys.init (headDone clk 0 headSth) ++ [.finish clk]) u ∧
    handleUpdate xlib m1 true u initClient = (.accepted, st') ∧ st'.sthDB.get (go!"L1@05") = some (go!"rootA") ∧
    ∀ k r, st'.sthDB.get k = some r → ∃ g d, k = g.payload.p0 ++ go!"@" ++ g.period ∧ treeInfo xlib g = some d ∧ r = d.rootHash ∧
      g.period = go!"05" := by
  have h : ((sysRun xlib sysConf Sys.init (headDone clk 0 headSth)).mon (go!"G2")).bind (fun m =>
      ((endPeriod xlib (sysConf.mon (go!"G2")) clk m).files.get (periodIO (sysConf.mon (go!"G2")) clk)).map fun u =>
        ((handleUpdate xlib m1 true u initClient).1, (handleUpdate xlib m1 true u initClient).2.sthDB.get (go!"L1@05"))) =
      some (.accepted, some (go!"rootA")) := by decide +kernel
  obtain ⟨m, hm, h1⟩ := Option.bind_eq_some_iff.1 h
  obtain ⟨u, hu, h2⟩ := Option.map_eq_some_iff.1 h1
  simp only [Prod.mk.injEq] at h2
  rw [sysRun_mon, show Sys.init.mon (go!"G2") = some initMonitor from rfl, Option.bind_some] at hm
  have hpub : Published xlib (sysConf.mon (go!"G2")) (monHist xlib sysConf (go!"G2") Sys.init (headDone clk 0 headSth) ++ [.finish clk]) u :=
    ⟨monHist xlib sysConf (go!"G2") Sys.init (headDone clk 0 headSth), clk, [], m, endPeriod xlib (sysConf.mon (go!"G2")) clk m, rfl, hm, rfl, hu⟩
  have hacc : handleUpdate xlib m1 true u initClient = (.accepted, (handleUpdate xlib m1 true u initClient).2) := Prod.ext h2.1 rfl
  refine ⟨u, _, hpub, hacc, h2.2, fun k r hr => ?_⟩
  have := C132_clients_partial (X := xlib) (sysConf.mon (go!"G2")) (fun p _ => p = go!"05") _ u hpub ?_ m1 true initClient _ hacc k r hr
  · rcases this with h0 | h0
    · cases h0
    · exact h0
  · intro e he g hd ht
    have hper := headFull_is.2.2
    have hs : headSth.type ≠ .STH_FULL := by decide
    rw [headDone_hist2] at he
    generalize headFull (headDone clk 0 headSth) (go!"05") (go!"G2") = f at he hper
    generalize headSth = q at he hs
    simp only [List.mem_append, List.mem_cons, List.not_mem_nil, or_false] at he
    rcases he with (rfl | rfl) | rfl <;> rcases hd with h | ⟨_, h⟩ <;> cases h
    · exact absurd ht hs
    · exact hper

end Ref

end CTng
