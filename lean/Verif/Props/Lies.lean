import Verif.Props.Logger
import Verif.Props.GossiperSeq
import Verif.Proofs.WireLaws
/-
C115: what the misbehaving test types of CAs and loggers show instead of the real statement.
-/
set_option autoImplicit false

namespace CTng

/-- What a signer of an STH_INIT or REV_INIT signs. -/
def signedText (g : GossipObj) : Str := g.payload.p0 ++ g.payload.p1 ++ g.payload.p2

/-- Two statements that together convict their entity: both verify, they are of one kind, signer, entity and period, they say
different things and their signatures differ (or the hash function collides on the two texts). -/
structure Conflicting {L : Lib} (cc : CryptoConfig L) (a b : GossipObj) : Prop where
  kind : a.type = b.type ∧ (a.type = .STH_INIT ∨ a.type = .REV_INIT)
  signer : a.signer = b.signer
  entity : a.payload.p0 = b.payload.p0
  period : a.period = b.period
  verify : a.verify cc = .ok ∧ b.verify cc = .ok
  differ : signedText a ≠ signedText b
  sig : a.sig.s0 ≠ b.sig.s0 ∨ CollisionIn L.sha256 [signedText a] [signedText b]

section
variable {L : Lib} {X : XLib}

/-- Signatures by one key on different texts differ, or the hash function collides on them. -/
theorem sign_differ (J : L.JsonLaws) (pub : L.RsaPriv → L.RsaPub) (laws : L.RsaLaws pub) (k : L.RsaPriv) (hk : CanSign k) (id : Str)
    (hid : Safe id) (m m' : Str) (hne : m ≠ m') :
    ((rsaSignMsg m k id).getD zeroSig).toStr ≠ ((rsaSignMsg m' k id).getD zeroSig).toStr ∨ CollisionIn L.sha256 [m] [m'] := by
  obtain ⟨b, hb⟩ := hk (L.sha256 m)
  obtain ⟨b', hb'⟩ := hk (L.sha256 m')
  have h1 : rsaSignMsg m k id = some ⟨b, id⟩ := by simp only [rsaSignMsg, hb, Option.map_some]
  have h2 : rsaSignMsg m' k id = some ⟨b', id⟩ := by simp only [rsaSignMsg, hb', Option.map_some]
  rw [h1, h2]
  by_cases he : b = b'
  · right
    subst he
    exact ⟨m, by simp, m', by simp, hne, laws.digest _ _ _ _ hb hb'⟩
  · left
    intro hs
    have r1 := rsaSig_roundtrip J (⟨b, id⟩ : RSASig) hid
    have r2 := rsaSig_roundtrip J (⟨b', id⟩ : RSASig) hid
    simp only [Option.getD_some] at hs
    rw [hs, r2] at r1
    simp only [Option.some.injEq, RSASig.mk.injEq] at r1
    exact he r1.1.symm

/-! ### Loggers -/

theorem instant_ascii (t : Instant) : Ascii t.rfc3339 ∧ Ascii (getCurrentPeriod t) := by
  have hpad : ∀ w k, Ascii (padInt w k) := by
    intro w k
    refine ascii_append ?_ (itoa_ascii k)
    intro ch hch
    rw [List.mem_replicate] at hch
    rw [hch.2]; decide
  constructor
  · unfold Instant.rfc3339
    refine ascii_append (ascii_append (ascii_append (ascii_append (ascii_append (ascii_append (ascii_append
      (ascii_append (ascii_append (ascii_append (ascii_append (hpad _ _) ?_) (hpad _ _)) ?_) (hpad _ _)) ?_)
      (hpad _ _)) ?_) (hpad _ _)) ?_) (hpad _ _)) ?_ <;> (unfold Ascii; decide)
  · rw [period_eq_padInt]; exact hpad _ _

/-- The tree head over the given certificates. -/
theorem built_size (hX : X.Laws) (c : LoggerConf L) (hid : Ascii c.signer) (t : Instant) (certs : List Cert) (n : Nat) (b : Built)
    (hlt : certs.length < 2 ^ 63) (hb : buildMerkle X c t certs n = some b) :
    ∃ raw d, hexDecode b.sth.payload.p1 = some raw ∧ X.decSTH raw = some d ∧ d.treeSize = certs.length := by
  unfold buildMerkle at hb
  obtain ⟨tree, _, rfl⟩ := Option.map_eq_some_iff.1 hb
  exact ⟨_, _, hexDecode_encode _, hX.sth _ ⟨hid, (instant_ascii t).1, (instant_ascii t).2, Ref.hexEncode_ascii _, hlt⟩, rfl⟩

/-- The two trees of the end of a period. -/
theorem loggerRound_fake (c : LoggerConf L) {t : Instant} {s s' : LoggerState} (h : loggerRound X c t s = some s') :
    ∃ (b f : Built) (c0 : Cert), buildMerkle X c t s.pool.getCerts (t.minute + 1) = some b ∧
      buildMerkle X c t (s.pool.getCerts ++ [c0]) (t.minute + 1) = some f ∧
      s'.sthStorage = s.sthStorage.set (padInt 2 (t.minute + 1)) b.sth ∧
      s'.sthStorageFake = s.sthStorageFake.set (padInt 2 (t.minute + 1)) f.sth := by
  unfold loggerRound at h
  simp only [loggerNextNum_eq, loggerNextPeriod_eq] at h
  split at h
  · cases h
  · rename_i b hb
    split at h
    · cases h
    · rename_i c0 l hl
      split at h
      · cases h
      · rename_i f hf
        split at h
        · cases h
        · cases h
          exact ⟨b, f, c0, hb, hf, rfl, rfl⟩

/-- C115 for loggers: in the minute after a period ended, what a logger of a misbehaving type shows instead of its tree head is a
split view of it at everyone who holds the logger's key. -/
theorem C115_logger (hX : X.Laws) (J : L.JsonLaws) (pub : L.RsaPriv → L.RsaPub) (laws : L.RsaLaws pub) (c : LoggerConf L)
    (hk : CanSign c.crypto.signSecretKey) (hid : Safe c.signer) (hne : c.signer ≠ []) (cc : CryptoConfig L)
    (hc : cc.signScheme = go!"rsa") (hkey : cc.signPublicMap.get c.signer = some (pub c.crypto.signSecretKey))
    (t t' : Instant) (hm : t'.minute = t.minute + 1) (evs : List LoggerEvent) (s s1 s2 : LoggerState)
    (hlt : s.pool.getCerts.length + 1 < 2 ^ 63) (h1 : loggerStep X c s (.finish t) = some s1)
    (h2 : loggerRun X c s1 evs = some s2) (hu : logUntouched t'.minute evs) :
    Conflicting cc (storedSTH t' s2) (storedFakeSTH t' s2) := by
  obtain ⟨b, f, c0, hb, hf, e1, e2⟩ := loggerRound_fake c h1
  have hfr := logStored_frame X c t'.minute t'.minute_lt evs h2 hu
  have hreal : storedSTH t' s2 = b.sth := by
    unfold storedSTH
    rw [hfr.1, e1, hm, GoMap.get_set_self]; rfl
  have hfake : storedFakeSTH t' s2 = f.sth := by
    unfold storedFakeSTH
    rw [hfr.2, e2, hm, GoMap.get_set_self]; rfl
  rw [hreal, hfake]
  have v1 := C76_tree_heads_verify X c J pub laws hk hid hne cc hc hkey t _ _ b hb
  have v2 := C76_tree_heads_verify X c J pub laws hk hid hne cc hc hkey t _ _ f hf
  obtain ⟨raw, d, g1, g2, g3⟩ := built_size hX c (Wire.safe_ascii hid) t _ _ b (by omega) hb
  obtain ⟨raw', d', g1', g2', g3'⟩ := built_size hX c (Wire.safe_ascii hid) t _ _ f (by simp only [List.length_append, List.length_singleton]; omega) hf
  have hp : b.sth.payload.p1 ≠ f.sth.payload.p1 := by
    intro e
    rw [e, g1'] at g1
    cases g1
    rw [g2'] at g2
    cases g2
    rw [g3'] at g3
    simp at g3
  unfold buildMerkle at hb hf
  obtain ⟨tree, _, rfl⟩ := Option.map_eq_some_iff.1 hb
  obtain ⟨tree', _, rfl⟩ := Option.map_eq_some_iff.1 hf
  have hd : ∀ x y : Str, x ≠ y → c.signer ++ x ++ [] ≠ c.signer ++ y ++ [] := by
    intro x y hxy e
    rw [List.append_nil, List.append_nil] at e
    exact hxy (List.append_cancel_left e)
  refine ⟨⟨rfl, .inl rfl⟩, rfl, rfl, rfl, ⟨v1, v2⟩, hd _ _ hp, ?_⟩
  have := sign_differ J pub laws c.crypto.signSecretKey hk c.signer hid _ _ (hd _ _ hp)
  simpa only [List.append_nil, signedText] using this

/-! ### CAs -/

theorem BitSet.set_of_test {b : BitSet} (h : b.WF) {i : Nat} (hi : b.test i = true) : b.set i = b := by
  have hl : i < b.len := by
    simp only [BitSet.test, Bool.and_eq_true, decide_eq_true_eq] at hi
    exact hi.1
  have hb : b.bits ||| 2 ^ i = b.bits := by
    apply Nat.eq_of_testBit_eq
    intro j
    rw [Nat.testBit_or, Nat.testBit_two_pow]
    by_cases hj : i = j
    · subst hj
      rw [BitSet.test_eq h] at hi
      rw [hi]; rfl
    · simp [hj]
  simp only [BitSet.set, if_pos hl, hb]

theorem onlineZero (c : CAConf L) (root : Cert) (hc : c.caType ≠ 0) (evs : List CAEvent) (hf : hasFinish evs = false)
    {s : CAState} {sha : Str → Str} {signer pub : Str} (h : caRun X c root (initCA X sha signer pub).2 evs = some s) :
    s.onlineDuration = 0 := by
  have hz : ∀ (l : List CAEvent) (n : Nat × Nat), hasFinish l = false → (counters n l).2 = n.2 := by
    intro l
    induction l with
    | nil => intro n _; rfl
    | cons e r ih =>
      intro n hl
      cases e with
      | finish t pos => simp [hasFinish] at hl
      | request t => exact ih (n.1 + 1, n.2) (by simpa [hasFinish] using hl)
      | _ => exact ih n (by simpa [hasFinish] using hl)
  have := counters_run X c root hc evs h
  have h0 := hz evs (0, 0) hf
  have e : (s.requestCount, s.onlineDuration) = counters (0, 0) evs := this
  rw [← e] at h0
  exact h0

/-- The two revocations of the end of a period, in the minute after it. -/
theorem ca_two (hX : X.Laws) (c : CAConf L) (root : Cert) (sha : Str → Str) (signer pub : Str) (evs0 evs : List CAEvent)
    (t t' : Instant) (hm : t'.minute = t.minute + 1) (pos : List Nat) (s s1 s2 : CAState)
    (h0 : caRun X c root (initCA X sha signer pub).2 evs0 = some s) (h1 : caStep X c root s (.finish t pos) = some s1)
    (h2 : caRun X c root s1 evs = some s2) (hu : untouched t'.minute evs) :
    ∃ z : CAState, z.onlineDuration = s.onlineDuration ∧ z.crv.WF ∧
      (∀ j, z.crv.delta.test j = true ↔ (hasFinish evs0 = false ∧ s1.crv.current.test j = true)) ∧
      generateRevocation X c z (itoa t'.minute) false = some (storedREV t' s2) ∧
      generateRevocation X c z (itoa t'.minute) true = some (storedFakeREV t' s2) := by
  obtain ⟨s', hs', hw⟩ := caRun_total c root hX (initCA_wf (X := X) sha signer pub) evs0
  rw [h0] at hs'
  cases hs'
  have hv := vecStep X c root evs0 (s := (initCA X sha signer pub).2) (BitSet.wf_new crvSize) h0
  obtain ⟨r, f, hr, hf, rfl⟩ := endRound_some X c h1
  have hfr := stored_frame X c root t'.minute evs h2 hu
  have hp : caNextPeriod t = itoa t'.minute := by rw [caNextPeriod_eq, hm]
  rw [hp] at hr hf hfr
  simp only [GoMap.get_set_self] at hfr
  refine ⟨{ s with crv := if s.fresh then s.crv.massRevoke pos else s.crv, fresh := false }, rfl, round_wf hw pos, ?_, ?_, ?_⟩
  · intro j
    cases hfin : hasFinish evs0 with
    | true =>
      have hp : s.crv.pre = .alias := by rw [hv.pre, hfin]; rfl
      have hfr : s.fresh = false := by rw [hv.fresh, hfin]; simp
      simp [hfr, CRV.delta, hp, BitSet.test_new]
    | false =>
      have hp : s.crv.pre = .own (BitSet.new crvSize) := by rw [hv.pre, hfin]; rfl
      have hfr : s.fresh = true := by rw [hv.fresh, hfin]; rfl
      simp only [hfr, if_true, CRV.delta, CRV.massRevoke, hp, CRV.closePeriod, true_and]
      rw [BitSet.test_symDiff (BitSet.wf_setAll hw.1 pos) (BitSet.wf_new _), BitSet.test_new]
      simp
  · rw [hr]; unfold storedREV; rw [hfr.1]; rfl
  · rw [hf]; unfold storedFakeREV; rw [hfr.2]; rfl

/-- C115 for CAs does not hold in the first period: if certificate 1 is among the revoked ones, the lie is the truth. -/
theorem C115_violated_first_period (hX : X.Laws) (c : CAConf L) (root : Cert) (hc : c.caType ≠ 0) (sha : Str → Str)
    (signer pub : Str) (evs0 evs : List CAEvent) (hfirst : hasFinish evs0 = false) (t t' : Instant) (hm : t'.minute = t.minute + 1)
    (pos : List Nat) (s s1 s2 : CAState) (h0 : caRun X c root (initCA X sha signer pub).2 evs0 = some s)
    (h1 : caStep X c root s (.finish t pos) = some s1) (h2 : caRun X c root s1 evs = some s2) (hu : untouched t'.minute evs)
    (hbit : s1.crv.current.test 1 = true) : storedFakeREV t' s2 = storedREV t' s2 := by
  obtain ⟨z, z1, z2, z3, z4, z5⟩ := ca_two hX c root sha signer pub evs0 evs t t' hm pos s s1 s2 h0 h1 h2 hu
  rw [onlineZero c root hc evs0 hfirst h0] at z1
  have hd : z.crv.delta.test 1 = true := (z3 1).2 ⟨hfirst, hbit⟩
  have he : revDelta X z.crv z.onlineDuration true = revDelta X z.crv z.onlineDuration false := by
    simp only [revDelta, if_true, Bool.false_eq_true, if_false, hX.bits _ (CRV.delta_wf z2), Option.map_some, z1]
    rw [Nat.add_zero, BitSet.set_of_test (CRV.delta_wf z2) hd]
  unfold generateRevocation at z4 z5
  rw [he, z4] at z5
  exact (Option.some.inj z5).symm

/-- C115 for CAs, in every period but the first, and in the first if certificate 1 is not revoked: what a CA shows instead of
its revocations is a split view of them, with one more certificate. Missing: the first period with certificate 1 revoked. -/
theorem C115_ca_partial (hX : X.Laws) (J : L.JsonLaws) (pub : L.RsaPriv → L.RsaPub) (laws : L.RsaLaws pub) (c : CAConf L)
    (hc : c.caType ≠ 0) (hk : CanSign c.crypto.signSecretKey) (hid : Safe c.crypto.selfID) (hne : c.signer ≠ []) (cc : CryptoConfig L)
    (hcc : cc.signScheme = go!"rsa") (hkey : cc.signPublicMap.get c.crypto.selfID = some (pub c.crypto.signSecretKey))
    (root : Cert) (sha : Str → Str) (signer rootKey : Str) (evs0 evs : List CAEvent) (t t' : Instant) (hm : t'.minute = t.minute + 1)
    (pos : List Nat) (s s1 s2 : CAState) (h0 : caRun X c root (initCA X sha signer rootKey).2 evs0 = some s)
    (h1 : caStep X c root s (.finish t pos) = some s1) (h2 : caRun X c root s1 evs = some s2) (hu : untouched t'.minute evs)
    (hbit : hasFinish evs0 = true ∨ s1.crv.current.test 1 = false) :
    Conflicting cc (storedREV t' s2) (storedFakeREV t' s2) ∧
      ∃ d d', X.unmarshal (X.decompress (X.decRev (storedREV t' s2).payload.p2).deltaCRV) = some d ∧
        X.unmarshal (X.decompress (X.decRev (storedFakeREV t' s2).payload.p2).deltaCRV) = some d' ∧
        d.test (1 + s.onlineDuration) = false ∧ ∀ j, d'.test j = (decide (j = 1 + s.onlineDuration) || d.test j) := by
  obtain ⟨z, z1, z2, z3, z4, z5⟩ := ca_two hX c root sha signer rootKey evs0 evs t t' hm pos s s1 s2 h0 h1 h2 hu
  have hz : z.crv.delta.test (1 + s.onlineDuration) = false := by
    rw [← Bool.not_eq_true, z3]
    rintro ⟨f1, f2⟩
    rcases hbit with hb | hb
    · rw [hb] at f1; cases f1
    · rw [onlineZero c root hc evs0 f1 h0, Nat.add_zero, hb] at f2; cases f2
  have v1 := C76_revocations_verify X J pub laws c hk hid hne cc hcc hkey z _ false _ z4
  have v2 := C76_revocations_verify X J pub laws c hk hid hne cc hcc hkey z _ true _ z5
  have hida := Wire.safe_ascii hid
  have d1 := (generate_decodes c hX z2 _ (itoa_ascii _) hida _ z4).1
  have d2 : X.unmarshal (X.decompress (X.decRev (storedFakeREV t' s2).payload.p2).deltaCRV) =
      some (z.crv.delta.set (1 + s.onlineDuration)) := by
    generalize storedFakeREV t' s2 = g at z5
    simp only [generateRevocation, revDelta, if_true, hX.bits _ (CRV.delta_wf z2), Option.map_some, Option.some.injEq] at z5
    subst z5
    simp only
    rw [hX.rev _ ⟨itoa_ascii _, sign_ascii _ _ _ hida⟩]
    simp [hX.compress, hX.bits _ (BitSet.wf_set (CRV.delta_wf z2) _), z1]
  have hp : (storedREV t' s2).payload.p2 ≠ (storedFakeREV t' s2).payload.p2 := by
    intro e
    rw [e, d2] at d1
    have := congrArg (fun b => b.test (1 + s.onlineDuration)) (Option.some.inj d1)
    simp only [BitSet.test_set (CRV.delta_wf z2), decide_true, Bool.true_or, hz] at this
    cases this
  refine ⟨?_, _, _, d1, d2, hz, fun j => BitSet.test_set (CRV.delta_wf z2) _ j⟩
  generalize storedREV t' s2 = a at *
  generalize storedFakeREV t' s2 = b at *
  unfold generateRevocation at z4 z5
  obtain ⟨da, _, rfl⟩ := Option.map_eq_some_iff.1 z4
  obtain ⟨db, _, rfl⟩ := Option.map_eq_some_iff.1 z5
  have hd : ∀ x y : Str, x ≠ y → c.signer ++ go!"CRV" ++ x ≠ c.signer ++ go!"CRV" ++ y := fun x y hxy e => hxy (List.append_cancel_left e)
  exact ⟨⟨rfl, .inr rfl⟩, rfl, rfl, rfl, ⟨v1, v2⟩, hd _ _ hp, sign_differ J pub laws c.crypto.signSecretKey hk c.crypto.selfID hid _ _ (hd _ _ hp)⟩

/-- A gossiper that holds one half of a split view and handles the other convicts the entity, or the hash function collides. -/
theorem C115_convicts (cf : GConf L) (hT : 0 < cf.crypto.threshold) (s : GState) (hs : GReach cf s) (a b : GossipObj)
    (hv : Conflicting cf.crypto a b) (held : HeldAs s.storage a.getID a a.type) (hnb : s.blacklist.has b.payload.p0 = false)
    (clk : Clock) (n : Int) :
    (∃ c : GossipObj, c.type = .CON_INIT ∧ c.payload.p0 = b.payload.p0 ∧ c.verify cf.crypto = .ok ∧
      (gossipObjectHandler cf clk n s b).1.blacklist.has b.payload.p0 = true ∧
      (gossipObjectHandler cf clk n s b).1.out =
        s.out ++ cf.connected.map (fun u => .peer u (go!"/gossip/con_init") (.obj c)) ++ [.owner c]) ∨
    CollisionIn L.sha256 [signedText a] [signedText b] := by
  rcases hv.sig with h | h
  · left
    obtain ⟨c, h1, h2, h3, _, h5, h6⟩ := C18_equivocation_detected cf hT s hs a.type hv.kind.2 a b a.getID held hv.kind.1.symm
      hv.period.symm hv.entity.symm hv.signer.symm (fun e => h (by rw [e])) hv.verify.2 hnb clk n
    exact ⟨c, h1, h2, h3, h5, h6⟩
  · exact .inr h

end

theorem loggerRun_append {L : Lib} (X : XLib) (c : LoggerConf L) (a b : List LoggerEvent) (s : LoggerState) :
    loggerRun X c s (a ++ b) = (loggerRun X c s a).bind fun s' => loggerRun X c s' b := by
  induction a generalizing s with
  | nil => rfl
  | cons e t ih =>
    simp only [List.cons_append, loggerRun]
    cases loggerStep X c s e with
    | none => rfl
    | some s1 => exact ih s1

namespace Ref

/-- L1 as a logger that lies on every second request of its second active period: it shows two different tree heads for minute 59. -/
def liarLog : LoggerConf lib := { logConf with loggerType := 1, misbehaviorInterval := 2 }
def liarBefore : List LoggerEvent := [.precert leafA.raw, .precert leafB.raw, .request at58]

example : ((loggerRun xlib liarLog initLogger (liarBefore ++ [.finish at58, .request at59])).map fun s =>
    (decide ((requestSTH liarLog at59 s).1 = .obj (storedFakeSTH at59 s)),
      decide ((requestSTH liarLog at59 (requestSTH liarLog at59 s).2).1 = .obj (storedSTH at59 s)))) = some (true, true) := by decide +kernel

example : ∃ s2, loggerRun xlib liarLog initLogger (liarBefore ++ [.finish at58, .request at59]) = some s2 ∧
    Conflicting (conf (go!"G1")) (storedSTH at59 s2) (storedFakeSTH at59 s2) := by
  have h : ((loggerRun xlib liarLog initLogger liarBefore).bind fun s => (loggerStep xlib liarLog s (.finish at58)).bind fun s1 =>
      (loggerRun xlib liarLog s1 [.request at59]).map fun _ => s.pool.getCerts.length) = some 2 := by decide +kernel
  obtain ⟨s, hs, h⟩ := Option.bind_eq_some_iff.1 h
  obtain ⟨s1, h1, h⟩ := Option.bind_eq_some_iff.1 h
  obtain ⟨s2, h2, h⟩ := Option.map_eq_some_iff.1 h
  refine ⟨s2, ?_, ?_⟩
  · rw [loggerRun_append, hs, Option.bind_some, loggerRun, h1]
    exact h2
  · exact C115_logger xlaws jsonLaws rsaPub rsaLaws liarLog (fun d => ⟨_, rfl⟩) (by unfold Safe; decide) (by decide) (conf (go!"G1")) rfl rfl
      at58 at59 rfl [.request at59] s s1 s2 (by rw [h]; decide) h1 h2 (by simp [logUntouched])

/-- A lying CA in the minute after the first period, when the second request is the one it lies to: it shows two revocations,
unless certificate 1 was revoked. -/
example : ([[9], [1, 9]].map fun pos => (caRun xlib liar caRoot caInit [.request at58, .finish at58 pos, .request at59]).map fun s =>
    (decide ((requestREV liar at59 s).1 = .obj (storedFakeREV at59 s)), decide (storedFakeREV at59 s = storedREV at59 s))) =
    [some (true, false), some (true, true)] := by decide +kernel

end Ref
end CTng
