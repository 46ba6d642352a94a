import Verif.Props.Replay
import Verif.Props.ClientRevs
/-
C156: the revocations of an honest CA in minutes of different hours.
-/
set_option autoImplicit false

namespace CTng

section
variable {L : Lib} {X : XLib}

/-- A revocation the CA has published in the history: it is what the CA holds for the next minute after one of its ends of period. -/
def CAPublished (X : XLib) (c : CAConf L) (root : Cert) (s0 : CAState) (evs : List CAEvent) (g : GossipObj) : Prop :=
  ∃ pre t pos post s, evs = pre ++ .finish t pos :: post ∧ caRun X c root s0 (pre ++ [.finish t pos]) = some s ∧
    s.revStorage.get (caNextPeriod t) = some g

theorem mem_revokedIn_append (a b : List CAEvent) (hf : hasFinish a = true) (f : Bool) :
    revokedIn f (a ++ b) = revokedIn f a ++ revokedIn false b := by
  induction a generalizing f with
  | nil => cases hf
  | cons e r ih =>
    cases e with
    | finish t pos =>
      simp only [List.cons_append, revokedIn, List.append_assoc, List.append_cancel_left_eq]
      cases hr : hasFinish r with
      | true => exact ih hr false
      | false =>
        clear ih hf
        induction r with
        | nil => rfl
        | cons e' r' ih' =>
          cases e' with
          | finish t' pos' => simp [hasFinish] at hr
          | revoke i => simp only [List.cons_append, revokedIn, ih' (by simpa [hasFinish] using hr)]
          | _ => exact ih' (by simpa [hasFinish] using hr)
    | revoke i => simp only [List.cons_append, revokedIn, ih (by simpa [hasFinish] using hf)]
    | _ => exact ih (by simpa [hasFinish] using hf) f

/-- What two revocations of a CA for one label have in common: everything, or they convict the CA. -/
theorem revs_conflict (J : L.JsonLaws) (pub : L.RsaPriv → L.RsaPub) (laws : L.RsaLaws pub) (c : CAConf L) (cc : CryptoConfig L)
    (hr : Registered pub c cc) (s s' : CAState) (p : Str) (g g' : GossipObj) (hg : generateRevocation X c s p false = some g)
    (hg' : generateRevocation X c s' p false = some g') (hne : g.payload ≠ g'.payload) : Conflicting cc g g' := by
  have v1 := C76_revocations_verify X J pub laws c hr.can hr.safe hr.signer cc hr.scheme hr.key s p false g hg
  have v2 := C76_revocations_verify X J pub laws c hr.can hr.safe hr.signer cc hr.scheme hr.key s' p false g' hg'
  simp only [generateRevocation, revDelta, Bool.false_eq_true, if_false, Option.map_some, Option.some.injEq] at hg hg'
  subst hg
  subst hg'
  have hd : ∀ x y : Str, x ≠ y → c.signer ++ go!"CRV" ++ x ≠ c.signer ++ go!"CRV" ++ y := by
    intro x y hxy e
    exact hxy (List.append_cancel_left e)
  have hp : ∀ x y : Str, (⟨c.signer, go!"CRV", x⟩ : Pay3) ≠ ⟨c.signer, go!"CRV", y⟩ → x ≠ y := fun x y h e => h (by rw [e])
  refine ⟨⟨rfl, .inr rfl⟩, rfl, rfl, rfl, ⟨v1, v2⟩, hd _ _ (hp _ _ hne), ?_⟩
  exact sign_differ J pub laws c.crypto.signSecretKey hr.can c.crypto.selfID hr.safe _ _ (hd _ _ (hp _ _ hne))

/-- C156 is false: an honest CA ends a period at minute `m` of one hour and again at minute `m` of another. If it has revoked
something new in between, or if the first of the two was its first end of a period and it had revoked something, then the two
revocations it published convict it: a gossiper that holds one of them and is posted the other one, unaltered, makes a conflict proof that
verifies everywhere and blacklists the CA (or the hash function collides). -/
theorem C156_violated_hour_later (hX : X.Laws) (J : L.JsonLaws) (pub : L.RsaPriv → L.RsaPub) (laws : L.RsaLaws pub) (c : CAConf L)
    (root : Cert) (cf : GConf L) (hT : 0 < cf.crypto.threshold) (hr : Registered pub c cf.crypto) (sha : Str → Str) (signer rootPub : Str)
    (evs between : List CAEvent) (t0 t : Instant) (hm : t.minute = t0.minute) (pos0 pos : List Nat) (s' : CAState)
    (h : caRun X c root (initCA X sha signer rootPub).2 (evs ++ [.finish t0 pos0] ++ between ++ [.finish t pos]) = some s') (i : Nat)
    (hi : (i ∈ revokedIn false between ∧ i ∉ revokedIn true (evs ++ [.finish t0 pos0])) ∨
      (hasFinish evs = false ∧ i ∈ revokedIn true (evs ++ [.finish t0 pos0]))) :
    (∃ o o', (∃ s0, caRun X c root (initCA X sha signer rootPub).2 (evs ++ [.finish t0 pos0]) = some s0 ∧
        s0.revStorage.get (caNextPeriod t0) = some o) ∧ s'.revStorage.get (caNextPeriod t) = some o' ∧ o.payload.p0 = c.signer ∧
      Conflicting cf.crypto o o' ∧
      ∀ a b, (a = o ∧ b = o' ∨ a = o' ∧ b = o) → ∀ g, GReach cf g → HeldAs g.storage a.getID a .REV_INIT →
        g.blacklist.has c.signer = false → ∀ clk n,
        (gossipObjectHandler cf clk n g b).1.blacklist.has c.signer = true ∨ CollisionIn L.sha256 [signedText a] [signedText b]) ∨
    ∃ old old' d, CollisionIn L.sha256 (srhInputs L X (caNextPeriod t) old d) (srhInputs L X (caNextPeriod t) old' d) := by
  obtain ⟨s0, h0⟩ : ∃ s0, caRun X c root (initCA X sha signer rootPub).2 (evs ++ [.finish t0 pos0]) = some s0 := by
    rw [List.append_assoc, caRun_append] at h
    cases hs : caRun X c root (initCA X sha signer rootPub).2 (evs ++ [.finish t0 pos0]) with
    | none => rw [hs] at h; cases h
    | some s0 => exact ⟨s0, rfl⟩
  have hp : caNextPeriod t0 = caNextPeriod t := by rw [caNextPeriod_eq, caNextPeriod_eq, hm]
  obtain ⟨o, st, a1, a2, a3, a4, a5⟩ := published_exact X c root hX hr.ascii sha signer rootPub _ t0 pos0 s0 h0
  obtain ⟨o', st', b1, b2, b3, b4, b5⟩ := published_exact X c root hX hr.ascii sha signer rootPub _ t pos s' h
  have hfin : hasFinish (evs ++ [.finish t0 pos0] ++ between) = true := by
    rw [hasFinish_append, hasFinish_append]; simp [hasFinish]
  have hfin0 : hasFinish (evs ++ [.finish t0 pos0]) = true := by
    rw [hasFinish_append]; simp [hasFinish]
  have w0 := vecStep X c root _ (s := (initCA X sha signer rootPub).2) (BitSet.wf_new crvSize) h0
  have w1 := vecStep X c root _ (s := (initCA X sha signer rootPub).2) (BitSet.wf_new crvSize) h
  rw [hfin, if_pos rfl] at b5
  rw [hp] at a1 a2 a4 a5
  by_cases hpay : o.payload = o'.payload
  · right
    have e : getSRHandDCRV X o = getSRHandDCRV X o' := by unfold getSRHandDCRV; rw [hpay]
    rw [a5, b5] at e
    simp only [Prod.mk.injEq] at e
    obtain ⟨e1, e2⟩ := e
    have hbit0 : s0.crv.current.test i = true ↔ i ∈ revokedIn true (evs ++ [.finish t0 pos0]) := by
      rw [w0.bits i]
      have : (initCA X sha signer rootPub).2.crv.current.test i = false := BitSet.test_new _ _
      rw [this]
      simp only [Bool.false_eq_true, or_false]
      rfl
    have hbit1 : i ∈ revokedIn false between → s'.crv.current.test i = true := by
      intro hj
      rw [w1.bits i]
      left
      have : revokedIn (initCA X sha signer rootPub).2.fresh (evs ++ [CAEvent.finish t0 pos0] ++ between ++ [.finish t pos]) =
        revokedIn true (evs ++ [CAEvent.finish t0 pos0]) ++ revokedIn false (between ++ [.finish t pos]) := by
        rw [List.append_assoc]
        exact mem_revokedIn_append _ _ hfin0 true
      rw [this]
      refine List.mem_append_right _ ?_
      clear this hbit0 h b1 b2 b3 b4 b5 e1 e2 w1 hfin hpay hi
      induction between with
      | nil => cases hj
      | cons e r ih =>
        cases e with
        | revoke k =>
          simp only [revokedIn, List.mem_cons] at hj
          simp only [List.cons_append, revokedIn, List.mem_cons]
          rcases hj with hj | hj
          · exact .inl hj
          · exact .inr (ih hj)
        | finish t1 p1 => exact ih hj
        | _ => exact ih hj
    rcases hi with ⟨hi1, hi2⟩ | ⟨hi1, hi2⟩
    · have e1' : honestSRH X c (caNextPeriod t) s0.crv.current (BitSet.new crvSize) =
          honestSRH X c (caNextPeriod t) s'.crv.current (BitSet.new crvSize) := by
        rw [← e1, e2]
      by_cases hmsg : srhMessage L X (caNextPeriod t) s0.crv.current (BitSet.new crvSize) =
          srhMessage L X (caNextPeriod t) s'.crv.current (BitSet.new crvSize)
      · rcases srh_old X hX w0.wf w1.wf (congrArg L.sha256 hmsg) with he | hc
        · exfalso
          have := hbit1 hi1
          rw [← he, hbit0] at this
          exact hi2 this
        · exact ⟨_, _, _, hc⟩
      · rcases sign_differ J pub laws c.crypto.signSecretKey hr.can c.crypto.selfID hr.safe _ _ hmsg with hd | ⟨x, hx, y, hy, hxy, hh⟩
        · exact absurd e1' hd
        · refine ⟨s0.crv.current, s'.crv.current, BitSet.new crvSize, x, ?_, y, ?_, hxy, hh⟩
          · rw [List.mem_singleton] at hx; rw [hx]; simp [srhInputs]
          · rw [List.mem_singleton] at hy; rw [hy]; simp [srhInputs]
    · exfalso
      rw [hi1] at e2
      simp only [Bool.false_eq_true, if_false] at e2
      have := hbit0.2 hi2
      rw [e2, BitSet.test_new] at this
      cases this
  · left
    have hv := revs_conflict J pub laws c cf.crypto hr st st' _ o o' a2 b2 hpay
    refine ⟨o, o', ⟨s0, h0, by rw [hp]; exact a1⟩, b1, a3, hv, ?_⟩
    have hty : o.type = .REV_INIT ∧ o'.type = .REV_INIT := by
      simp only [generateRevocation, revDelta, Bool.false_eq_true, if_false, Option.map_some, Option.some.injEq] at a2 b2
      exact ⟨by rw [← a2], by rw [← b2]⟩
    have hv' : Conflicting cf.crypto o' o := revs_conflict J pub laws c cf.crypto hr st' st _ o' o b2 a2 (Ne.symm hpay)
    have key : ∀ a b, Conflicting cf.crypto a b → a.type = .REV_INIT → b.payload.p0 = c.signer → ∀ g, GReach cf g →
        HeldAs g.storage a.getID a .REV_INIT → g.blacklist.has c.signer = false → ∀ clk n,
        (gossipObjectHandler cf clk n g b).1.blacklist.has c.signer = true ∨ CollisionIn L.sha256 [signedText a] [signedText b] := by
      intro a b hab ha hb g hg held hnb clk n
      rcases C115_convicts cf hT g hg a b hab (by rw [ha]; exact held) (by rw [hb]; exact hnb) clk n with ⟨_, _, _, _, q, _⟩ | q
      · left; rw [← hb]; exact q
      · exact .inr q
    rintro a b (⟨rfl, rfl⟩ | ⟨rfl, rfl⟩)
    · exact key _ _ hv hty.1 b3
    · exact key _ _ hv' hty.2 a3

/-! ### Revocations that come again -/

/-- The revocation published at an end of period is made from the vector and the delta the history gives. -/
theorem published_state (hX : X.Laws) (c : CAConf L) (root : Cert) (sha : Str → Str) (signer pub : Str) (evs : List CAEvent)
    (t : Instant) (pos : List Nat) (s' : CAState)
    (h : caRun X c root (initCA X sha signer pub).2 (evs ++ [.finish t pos]) = some s') :
    ∃ g st, s'.revStorage.get (caNextPeriod t) = some g ∧ generateRevocation X c st (caNextPeriod t) false = some g ∧
      st.crv.current = s'.crv.current ∧ (hasFinish evs = true → st.crv.delta = BitSet.new crvSize) := by
  rw [caRun_append] at h
  obtain ⟨s, hs, hw⟩ := caRun_total c root hX (initCA_wf (X := X) sha signer pub) evs
  rw [hs] at h
  have hv := vecStep X c root evs (s := (initCA X sha signer pub).2) (BitSet.wf_new crvSize) hs
  simp only [Option.bind_some, caRun, caStep] at h
  split at h
  · cases h
  rename_i s1 h1
  simp only [Option.some.injEq] at h
  subst h
  obtain ⟨r, _, hr, _, rfl⟩ := endRound_some X c h1
  refine ⟨r, _, GoMap.get_set_self _ _ _, hr, rfl, ?_⟩
  intro hf
  have hp : s.crv.pre = .alias := by rw [hv.pre, hf]; rfl
  have hfr : s.fresh = false := by rw [hv.fresh, hf]; simp
  simp [hfr, CRV.delta, hp]

/-- A history in which nothing new is said for a label that comes again: of two ends of a period in minutes with one number, the first
was not the CA's first end of a period, and what was revoked in between had been revoked before. -/
def NothingNew (evs : List CAEvent) : Prop :=
  ∀ pre t pos mid t' pos' post, evs = pre ++ .finish t pos :: (mid ++ .finish t' pos' :: post) → t'.minute = t.minute →
    hasFinish pre = true ∧ ∀ i ∈ revokedIn false mid, i ∈ revokedIn true pre

/-- Under `NothingNew` a revocation that comes again is the same object. -/
theorem again_same (hX : X.Laws) (c : CAConf L) (root : Cert) (sha : Str → Str) (signer rootPub : Str) (evs : List CAEvent)
    (hq : NothingNew evs) (g g' : GossipObj) (hg : CAPublished X c root (initCA X sha signer rootPub).2 evs g)
    (hg' : CAPublished X c root (initCA X sha signer rootPub).2 evs g') (hp : g'.period = g.period) : g' = g := by
  have per : ∀ (pre : List CAEvent) t pos s x, caRun X c root (initCA X sha signer rootPub).2 (pre ++ [.finish t pos]) = some s →
      s.revStorage.get (caNextPeriod t) = some x → x.period = itoa (t.minute + 1) := by
    intro pre t pos s x h hx
    obtain ⟨y, st, y1, y2, _⟩ := published_state hX c root sha signer rootPub pre t pos s h
    cases hx.symm.trans y1
    simp only [generateRevocation, revDelta, Bool.false_eq_true, if_false, Option.map_some, Option.some.injEq] at y2
    rw [← y2, ← caNextPeriod_eq]
  have key : ∀ pre t pos mid t' pos' post s s' x x', evs = pre ++ .finish t pos :: (mid ++ .finish t' pos' :: post) →
      caRun X c root (initCA X sha signer rootPub).2 (pre ++ [.finish t pos]) = some s → s.revStorage.get (caNextPeriod t) = some x →
      caRun X c root (initCA X sha signer rootPub).2 (pre ++ .finish t pos :: mid ++ [.finish t' pos']) = some s' →
      s'.revStorage.get (caNextPeriod t') = some x' → x'.period = x.period → x' = x := by
    intro pre t pos mid t' pos' post s s' x x' he h1 h2 h3 h4 h5
    have hmin : t'.minute = t.minute := by
      rw [per _ _ _ _ _ h1 h2, per _ _ _ _ _ h3 h4] at h5
      have := congrArg atoi h5
      rw [atoi_itoa, atoi_itoa] at this
      have := Option.some.inj this
      omega
    obtain ⟨q1, q2⟩ := hq pre t pos mid t' pos' post he hmin
    obtain ⟨y, st, y1, y2, y3, y4⟩ := published_state hX c root sha signer rootPub pre t pos s h1
    obtain ⟨y', st', y1', y2', y3', y4'⟩ := published_state hX c root sha signer rootPub (pre ++ .finish t pos :: mid) t' pos' s' h3
    cases h2.symm.trans y1
    cases h4.symm.trans y1'
    have hcur : s'.crv.current = s.crv.current := by
      have e : pre ++ .finish t pos :: mid ++ [CAEvent.finish t' pos'] = (pre ++ [.finish t pos]) ++ (mid ++ [.finish t' pos']) := by simp
      rw [e, caRun_append, h1] at h3
      have w := vecStep X c root _ (s := (initCA X sha signer rootPub).2) (BitSet.wf_new crvSize) h1
      have hf : hasFinish (pre ++ [CAEvent.finish t pos]) = true := by rw [hasFinish_append]; simp [hasFinish]
      have hfr : s.fresh = false := by rw [w.fresh, hf]; simp
      rw [vec_exact X c root _ (s := s) h3, hfr]
      apply foldl_set_of_test
      intro i hi
      rw [w.bits i]
      left
      rw [show (initCA X sha signer rootPub).2.fresh = true from rfl, mem_revokedIn_append _ _ q1]
      refine List.mem_append_left _ (q2 i ?_)
      clear h3 he y4' y1' y2' y3' h4 h5 e q2
      induction mid with
      | nil => simp [revokedIn] at hi
      | cons e r ih =>
        cases e with
        | revoke k =>
          simp only [List.cons_append, revokedIn, List.mem_cons] at hi
          simp only [revokedIn, List.mem_cons]
          exact hi.imp id ih
        | finish t1 p1 => exact ih hi
        | _ => exact ih hi
    have hf' : hasFinish (pre ++ .finish t pos :: mid) = true := by rw [hasFinish_append, q1]; rfl
    have hper : caNextPeriod t' = caNextPeriod t := by rw [caNextPeriod_eq, caNextPeriod_eq, hmin]
    simp only [generateRevocation, revDelta, Bool.false_eq_true, if_false, Option.map_some, Option.some.injEq] at y2 y2'
    rw [← y2, ← y2', y3, y3', y4 q1, y4' hf', hcur, hper]
  obtain ⟨pre, t, pos, post, s, e, h1, h2⟩ := hg
  obtain ⟨pre', t', pos', post', s', e', h1', h2'⟩ := hg'
  have hh := e.symm.trans e'
  rcases List.append_eq_append_iff.1 hh with ⟨m, hm1, hm2⟩ | ⟨m, hm1, hm2⟩
  · cases m with
    | nil =>
      simp only [List.nil_append, List.append_nil, List.cons.injEq, CAEvent.finish.injEq] at hm1 hm2
      obtain ⟨⟨rfl, rfl⟩, rfl⟩ := hm2
      subst hm1
      rw [h1] at h1'
      cases h1'
      rw [h2] at h2'
      exact (Option.some.inj h2').symm
    | cons z mid =>
      simp only [List.cons_append, List.cons.injEq] at hm2
      obtain ⟨rfl, rfl⟩ := hm2
      subst hm1
      exact key pre t pos mid t' pos' post' s s' g g' (by rw [e]) h1 h2 h1' h2' hp
  · cases m with
    | nil =>
      simp only [List.nil_append, List.append_nil, List.cons.injEq, CAEvent.finish.injEq] at hm1 hm2
      obtain ⟨⟨rfl, rfl⟩, rfl⟩ := hm2
      subst hm1
      rw [h1] at h1'
      cases h1'
      rw [h2] at h2'
      exact (Option.some.inj h2').symm
    | cons z mid =>
      simp only [List.cons_append, List.cons.injEq] at hm2
      obtain ⟨rfl, rfl⟩ := hm2
      subst hm1
      exact (key pre' t' pos' mid t pos post s' s g' g (by rw [e']) h1' h2' h1 h2 hp.symm).symm

/-- C156, what holds: if nothing new is said for a label that comes again (in particular within an hour), a gossiper that is posted no
other revocation of the CA, no tree head and no conflict proof naming it holds no conflict proof naming it, and has it blacklisted only
on a full accusation, under every schedule. Missing: new revocations, and the first end of a period, under a label that comes
again. -/
theorem C156_nothing_new_partial (hX : X.Laws) (c : CAConf L) (hne : c.signer ≠ []) (root : Cert) (sha : Str → Str) (signer rootPub : Str)
    (evs : List CAEvent) (hq : NothingNew evs) (cf : GConf L) (h : History)
    (hrev : ∀ g, Delivered h g → g.type = .REV_INIT → g.payload.p0 = c.signer → CAPublished X c root (initCA X sha signer rootPub).2 evs g)
    (hsth : ∀ g, Delivered h g → g.type = .STH_INIT → g.payload.p0 ≠ c.signer)
    (hcon : ∀ g, Delivered h g → g.type = .CON_INIT → g.payload.p0 ≠ c.signer) :
    (∀ k o, HeldAs (crun cf CState.init h).g.storage k o .CON_INIT → o.payload.p0 ≠ c.signer) ∧
    ((crun cf CState.init h).g.blacklist.has c.signer = true → ∃ a, a.type = .ACC_FULL ∧ a.payload.p0 = c.signer ∧
      a.verify cf.crypto = .ok ∧ WasStored cf h a) := by
  refine C19_consistent_entity_not_convicted_partial cf h c.signer hne ⟨hcon, ?_, ?_⟩
  · intro g hg ht hp
    rcases ht with ht | ht
    · exact absurd hp (hsth g hg ht)
    · obtain ⟨pre, t, pos, post, s, _, h1, h2⟩ := hrev g hg ht hp
      obtain ⟨y, st, y1, y2, _⟩ := published_state hX c root sha signer rootPub pre t pos s h1
      cases h2.symm.trans y1
      simp only [generateRevocation, revDelta, Bool.false_eq_true, if_false, Option.map_some, Option.some.injEq] at y2
      rw [← y2]
      exact hne
  · intro g g' hg hg' ht ht' hp hp' hper
    rcases ht with ht | ht
    · exact absurd hp (hsth g hg ht)
    · rw [again_same hX c root sha signer rootPub evs hq g g' (hrev g hg ht hp) (hrev g' hg' (ht'.trans ht) hp') hper]

end
namespace Ref

/-- C1 revokes certificate 4, ends minute 34 and minute 58, and minute 58 of the next two hours; it revokes certificate 7 before the last
time. -/
def caHours : List CAEvent :=
  [.revoke 4, .finish at34 [], .finish at58 [], .finish later58 [], .revoke 7,
   .finish { later58 with hour := 12, hour_lt := by decide } []]

/-- What C1 holds for minute 59 after the first `n` events. -/
def caHour (n : Nat) : Option GossipObj := (caRun xlib caConf caRoot caInit (caHours.take n)).bind fun s => s.revStorage.get (go!"59")

/-- G1 holds the revocation of the first hour. The one of the second hour is the same. For the one of the third hour C1 is convicted, and
also if G1 holds the later one and is posted the earlier one. -/
example : ((caHour 3).bind fun a => (caHour 4).bind fun b => (caHour 6).map fun d =>
    let hold := fun x => (gossipObjectHandler gconf clk 0 GState.init x).1
    let after := fun s x => (gossipObjectHandler gconf clk 0 s x).1.blacklist.has (go!"C1")
    (decide (a = b), (hold a).storage.revInit.has a.getID, after (hold a) b, after (hold a) d, after (hold d) a)) =
    some (true, true, false, true, true) := by decide +kernel

/-- The hypotheses of `C156_violated_hour_later`, both ways. -/
example : ∃ s', caRun xlib caConf caRoot caInit ([.revoke 4] ++ [.finish at58 []] ++ [.revoke 7] ++ [.finish later58 []]) = some s' ∧
    later58.minute = at58.minute ∧
    (7 ∈ revokedIn false [.revoke 7] ∧ 7 ∉ revokedIn true ([.revoke 4] ++ [.finish at58 []])) ∧
    (hasFinish [.revoke 4] = false ∧ 4 ∈ revokedIn true ([.revoke 4] ++ [.finish at58 []])) :=
  ⟨_, rfl, rfl, by simp [revokedIn], rfl, by simp [revokedIn]⟩

/-- The hypothesis of `C156_nothing_new_partial` for the first four events: minute 58 comes twice. -/
example : NothingNew (caHours.take 4) := by
  intro pre t pos mid t' pos' post h hm
  rcases pre with _ | ⟨a, _ | ⟨b, _ | ⟨d, _ | ⟨e, pre⟩⟩⟩⟩ <;>
    simp only [caHours, List.take, List.nil_append, List.cons_append, List.cons.injEq, reduceCtorEq, false_and,
      CAEvent.finish.injEq] at h
  · obtain ⟨_, ⟨rfl, rfl⟩, h⟩ := h
    rcases mid with _ | ⟨x, _ | ⟨y, mid⟩⟩ <;>
      simp only [List.nil_append, List.cons_append, List.cons.injEq, CAEvent.finish.injEq, List.nil_eq, List.append_eq_nil_iff,
        reduceCtorEq, and_false] at h
    · rw [← h.1.1] at hm; cases hm
    · rw [← h.2.1.1] at hm; cases hm
  · obtain ⟨rfl, rfl, ⟨rfl, rfl⟩, h⟩ := h
    refine ⟨rfl, ?_⟩
    rcases mid with _ | ⟨x, mid⟩
    · intro i hi; cases hi
    · simp at h
  · obtain ⟨_, _, _, _, h⟩ := h
    simp at h
  · simp at h

end Ref

end CTng
