import Verif.Model.Client
import Verif.Props.Monitor
/- C48-C53 and C79-C84: clients. -/
set_option autoImplicit false

namespace CTng
open Client
variable {L : Lib} (X : XLib) (c : CryptoConfig L)

theorem hexPrefix_encode : ∀ s : Str, hexPrefix (hexEncode s) = s
  | [] => rfl
  | b :: t => by
    obtain ⟨_, _, h3, h4, h5⟩ := hexDigit_spec b
    simp [hexEncode, hexPrefix, h3, h4, h5, hexPrefix_encode t]

/-! ### The three loops -/

/-- CA and delta of a revocation. -/
def deltaOf (rev : GossipObj) : Str × BitSet := (rev.payload.p0, (getSRHandDCRV X rev).2)

/-- A revocation passes at a client (or monitor) that knows the vectors `m`. -/
def RevPasses (m : GoMap Str BitSet) (rev : GossipObj) : Prop :=
  verifySRH X c m (getSRHandDCRV X rev).1 (getSRHandDCRV X rev).2 rev.payload.p0 rev.period = .ok

/-- The vectors after a list of revocations. -/
def afterRevs (l : List GossipObj) (m : GoMap Str BitSet) : GoMap Str BitSet := (l.map (deltaOf X)).foldl applyDelta m

/-- Every revocation of the list verifies and passes in its turn. -/
def RevsPass (v : Bool) (l : List GossipObj) (m : GoMap Str BitSet) : Prop :=
  ∀ pre r post, l = pre ++ r :: post → (v = true → r.verify c = .ok) ∧ RevPasses X c (afterRevs X pre m) r

theorem check_ok (v : Bool) (g : GossipObj) : check c v g = .ok ↔ (v = true → g.verify c = .ok) := by
  cases v <;> simp [check]

theorem revsPass_cons (v : Bool) (r : GossipObj) (t : List GossipObj) (m : GoMap Str BitSet) :
    RevsPass X c v (r :: t) m ↔ ((v = true → r.verify c = .ok) ∧ RevPasses X c m r) ∧
      RevsPass X c v t (applyDelta m (deltaOf X r)) := by
  constructor
  · intro h
    refine ⟨h [] r t rfl, fun pre x post hx => ?_⟩
    exact h (r :: pre) x post (by rw [hx]; rfl)
  · rintro ⟨h1, h2⟩ pre x post hx
    cases pre with
    | nil =>
      obtain ⟨rfl, rfl⟩ := List.cons.inj hx
      exact h1
    | cons a b =>
      obtain ⟨rfl, rfl⟩ := List.cons.inj hx
      exact h2 b x post rfl

/-- The loop over the revocations: it is left with `true` exactly when everything passes; in any case it has applied the
revocations before some point, all of which passed. -/
theorem handleRevs_spec (v : Bool) (l : List GossipObj) (m : GoMap Str BitSet) :
    ((handleRevs X c v l m).1 = .accepted ↔ RevsPass X c v l m) ∧
    ∃ done rest, l = done ++ rest ∧ RevsPass X c v done m ∧ (handleRevs X c v l m).2 = afterRevs X done m ∧
      (rest = [] ↔ (handleRevs X c v l m).1 = .accepted) := by
  induction l generalizing m with
  | nil =>
    refine ⟨⟨fun _ pre r post h => ?_, fun _ => rfl⟩, [], [], rfl, fun pre r post h => ?_, rfl, ⟨fun _ => rfl, fun _ => rfl⟩⟩ <;>
    exact absurd h (by simp)
  | cons r t ih =>
    rw [revsPass_cons]
    have hstop : ∀ e, e ≠ UpdRes.accepted → handleRevs X c v (r :: t) m = (e, m) →
        ¬ ((v = true → r.verify c = .ok) ∧ RevPasses X c m r) →
        (((handleRevs X c v (r :: t) m).1 = .accepted ↔ ((v = true → r.verify c = .ok) ∧ RevPasses X c m r) ∧
          RevsPass X c v t (applyDelta m (deltaOf X r))) ∧
        ∃ done rest, r :: t = done ++ rest ∧ RevsPass X c v done m ∧ (handleRevs X c v (r :: t) m).2 = afterRevs X done m ∧
          (rest = [] ↔ (handleRevs X c v (r :: t) m).1 = .accepted)) := by
      intro e he heq hno
      rw [heq]
      refine ⟨⟨fun h => absurd h he, fun h => absurd h.1 hno⟩, [], r :: t, rfl, fun pre r post h => ?_, rfl,
        ⟨fun h => by simp at h, fun h => absurd h he⟩⟩
      exact absurd h (by simp)
    cases hc : check c v r with
    | panic =>
      refine hstop .panicked (by decide) (by simp [handleRevs, hc]) fun h => ?_
      rw [(check_ok c v r).2 h.1] at hc
      exact absurd hc (by simp)
    | err e =>
      refine hstop .rejected (by decide) (by simp [handleRevs, hc]) fun h => ?_
      rw [(check_ok c v r).2 h.1] at hc
      exact absurd hc (by simp)
    | ok =>
      cases hs : verifySRH X c m (getSRHandDCRV X r).1 (getSRHandDCRV X r).2 r.payload.p0 r.period with
      | panic =>
        refine hstop .panicked (by decide) (by simp [handleRevs, hc, hs]) fun h => ?_
        rw [RevPasses, hs] at h
        exact absurd h.2 (by simp)
      | err e =>
        refine hstop .rejected (by decide) (by simp [handleRevs, hc, hs]) fun h => ?_
        rw [RevPasses, hs] at h
        exact absurd h.2 (by simp)
      | ok =>
        have heq : handleRevs X c v (r :: t) m = handleRevs X c v t (applyDelta m (deltaOf X r)) := by
          simp only [handleRevs, hc, hs]
          rfl
        rw [heq]
        have hp : (v = true → r.verify c = .ok) ∧ RevPasses X c m r := ⟨(check_ok c v r).1 hc, hs⟩
        obtain ⟨h1, done, rest, h2, h3, h4, h5⟩ := ih (applyDelta m (deltaOf X r))
        refine ⟨⟨fun h => ⟨hp, h1.1 h⟩, fun h => h1.2 h.2⟩, r :: done, rest, by rw [h2]; rfl, ?_, h4, h5⟩
        exact (revsPass_cons X c v r done m).2 ⟨hp, h3⟩

/-- A tree head verifies and can be read. -/
def SthPasses (v : Bool) (g : GossipObj) : Prop := (v = true → g.verify c = .ok) ∧ (treeInfo X g).isSome = true

def recordSTH (m : GoMap Str Str) (g : GossipObj) : GoMap Str Str :=
  m.set (g.payload.p0 ++ go!"@" ++ g.period) (((treeInfo X g).map (·.rootHash)).getD [])

theorem handleSTHs_spec (v : Bool) (l : List GossipObj) (m : GoMap Str Str) :
    ((handleSTHs X c v l m).1 = .accepted ↔ ∀ g ∈ l, SthPasses X c v g) ∧
    ∃ done rest, l = done ++ rest ∧ (∀ g ∈ done, SthPasses X c v g) ∧
      (handleSTHs X c v l m).2 = done.foldl (recordSTH X) m ∧ (rest = [] ↔ (handleSTHs X c v l m).1 = .accepted) := by
  induction l generalizing m with
  | nil => exact ⟨by simp [handleSTHs], [], [], rfl, by simp, rfl, by simp [handleSTHs]⟩
  | cons r t ih =>
    have hstop : ∀ e, e ≠ UpdRes.accepted → handleSTHs X c v (r :: t) m = (e, m) → ¬ SthPasses X c v r →
        (((handleSTHs X c v (r :: t) m).1 = .accepted ↔ ∀ g ∈ r :: t, SthPasses X c v g) ∧
        ∃ done rest, r :: t = done ++ rest ∧ (∀ g ∈ done, SthPasses X c v g) ∧
          (handleSTHs X c v (r :: t) m).2 = done.foldl (recordSTH X) m ∧
          (rest = [] ↔ (handleSTHs X c v (r :: t) m).1 = .accepted)) := by
      intro e he heq hno
      rw [heq]
      exact ⟨⟨fun h => absurd h he, fun h => absurd (h r List.mem_cons_self) hno⟩, [], r :: t, rfl, by simp, rfl,
        ⟨fun h => by simp at h, fun h => absurd h he⟩⟩
    cases hc : check c v r with
    | panic =>
      refine hstop .panicked (by decide) (by simp [handleSTHs, hc]) fun h => ?_
      rw [(check_ok c v r).2 h.1] at hc
      exact absurd hc (by simp)
    | err e =>
      refine hstop .rejected (by decide) (by simp [handleSTHs, hc]) fun h => ?_
      rw [(check_ok c v r).2 h.1] at hc
      exact absurd hc (by simp)
    | ok =>
      cases hs : treeInfo X r with
      | none =>
        refine hstop .rejected (by decide) (by simp [handleSTHs, hc, hs]) fun h => ?_
        rw [SthPasses, hs] at h
        exact absurd h.2 (by simp)
      | some d =>
        have heq : handleSTHs X c v (r :: t) m = handleSTHs X c v t (recordSTH X m r) := by
          simp [handleSTHs, hc, hs, recordSTH, sthKey]
        rw [heq]
        have hp : SthPasses X c v r := ⟨(check_ok c v r).1 hc, by rw [hs]; rfl⟩
        obtain ⟨h1, done, rest, h2, h3, h4, h5⟩ := ih (recordSTH X m r)
        refine ⟨⟨fun h g hg => ?_, fun h => h1.2 fun g hg => h g (List.mem_cons_of_mem _ hg)⟩,
          r :: done, rest, by rw [h2]; rfl, fun g hg => ?_, h4, h5⟩
        · rcases List.mem_cons.1 hg with rfl | hg
          · exact hp
          · exact h1.1 h g hg
        · rcases List.mem_cons.1 hg with rfl | hg
          · exact hp
          · exact h3 g hg

def recordPOM (m : GoMap Str GossipObj) (g : GossipObj) : GoMap Str GossipObj := m.set g.payload.p0 g

theorem handlePOMs_spec (v : Bool) (l : List GossipObj) (m : GoMap Str GossipObj) :
    ((handlePOMs c v l m).1 = .accepted ↔ ∀ g ∈ l, v = true → g.verify c = .ok) ∧
    ∃ done rest, l = done ++ rest ∧ (∀ g ∈ done, v = true → g.verify c = .ok) ∧
      (handlePOMs c v l m).2 = done.foldl recordPOM m ∧ (rest = [] ↔ (handlePOMs c v l m).1 = .accepted) := by
  induction l generalizing m with
  | nil => exact ⟨by simp [handlePOMs], [], [], rfl, by simp, rfl, by simp [handlePOMs]⟩
  | cons r t ih =>
    have hstop : ∀ e, e ≠ UpdRes.accepted → handlePOMs c v (r :: t) m = (e, m) → ¬ (v = true → r.verify c = .ok) →
        (((handlePOMs c v (r :: t) m).1 = .accepted ↔ ∀ g ∈ r :: t, v = true → g.verify c = .ok) ∧
        ∃ done rest, r :: t = done ++ rest ∧ (∀ g ∈ done, v = true → g.verify c = .ok) ∧
          (handlePOMs c v (r :: t) m).2 = done.foldl recordPOM m ∧
          (rest = [] ↔ (handlePOMs c v (r :: t) m).1 = .accepted)) := by
      intro e he heq hno
      rw [heq]
      exact ⟨⟨fun h => absurd h he, fun h => absurd (h r List.mem_cons_self) hno⟩, [], r :: t, rfl, by simp, rfl,
        ⟨fun h => by simp at h, fun h => absurd h he⟩⟩
    cases hc : check c v r with
    | panic =>
      refine hstop .panicked (by decide) (by simp [handlePOMs, hc]) fun h => ?_
      rw [(check_ok c v r).2 h] at hc
      exact absurd hc (by simp)
    | err e =>
      refine hstop .rejected (by decide) (by simp [handlePOMs, hc]) fun h => ?_
      rw [(check_ok c v r).2 h] at hc
      exact absurd hc (by simp)
    | ok =>
      have heq : handlePOMs c v (r :: t) m = handlePOMs c v t (recordPOM m r) := by
        simp [handlePOMs, hc, recordPOM]
      rw [heq]
      have hp := (check_ok c v r).1 hc
      obtain ⟨h1, done, rest, h2, h3, h4, h5⟩ := ih (recordPOM m r)
      refine ⟨⟨fun h g hg => ?_, fun h => h1.2 fun g hg => h g (List.mem_cons_of_mem _ hg)⟩,
        r :: done, rest, by rw [h2]; rfl, fun g hg => ?_, h4, h5⟩
      · rcases List.mem_cons.1 hg with rfl | hg
        · exact hp
        · exact h1.1 h g hg
      · rcases List.mem_cons.1 hg with rfl | hg
        · exact hp
        · exact h3 g hg

/-! ### C50: accepted updates -/

/-- The client can be used: no lock is taken. -/
def Free (s : ClientState) : Prop := s.crvLocked = false ∧ s.sthLocked = false ∧ s.pomLocked = false

/-- What an update must satisfy. -/
structure Passes (v : Bool) (u : ClientUpdate) (s : ClientState) : Prop where
  revs : RevsPass X c v u.revs s.crvDB
  sths : ∀ g ∈ u.sths, SthPasses X c v g
  poms : ∀ g ∈ u.pomACCs ++ u.pomCONs, v = true → g.verify c = .ok

/-- The databases after an update. -/
def applied (u : ClientUpdate) (s : ClientState) : ClientState :=
  { s with crvDB := afterRevs X u.revs s.crvDB, sthDB := u.sths.foldl (recordSTH X) s.sthDB,
           pomDB := (u.pomACCs ++ u.pomCONs).foldl recordPOM s.pomDB }

theorem done_all {l done rest : List GossipObj} (h : l = done ++ rest) (hr : rest = []) : done = l := by
  rw [h, hr, List.append_nil]

/-- C50. `HandleUpdate` returns true exactly when no lock is taken, every object verifies, every revocation passes
`VerifySRH` against the vectors known when its turn comes and every tree head can be read; the databases then are the old
ones with everything in the update applied. -/
theorem C50_accepted_iff (v : Bool) (u : ClientUpdate) (s s' : ClientState) :
    handleUpdate X c v u s = (.accepted, s') ↔ Free s ∧ Passes X c v u s ∧ s' = applied X u s := by
  obtain ⟨r1, rd, rr, r2, r3, r4, r5⟩ := handleRevs_spec X c v u.revs s.crvDB
  obtain ⟨t1, td, tr, t2, t3, t4, t5⟩ := handleSTHs_spec X c v u.sths s.sthDB
  obtain ⟨p1, pd, pr, p2, p3, p4, p5⟩ := handlePOMs_spec c v (u.pomACCs ++ u.pomCONs) s.pomDB
  unfold handleUpdate
  constructor
  · intro h
    by_cases hl : s.crvLocked = true
    · rw [if_pos hl] at h; cases h
    rw [if_neg hl] at h
    cases hr : handleRevs X c v u.revs s.crvDB with
    | mk o m =>
    rw [hr] at h r1 r4 r5
    cases o <;> simp only at h r1 r5
    case accepted =>
      by_cases hl2 : s.sthLocked = true
      · rw [if_pos hl2] at h; cases h
      rw [if_neg hl2] at h
      cases ht : handleSTHs X c v u.sths s.sthDB with
      | mk o2 m2 =>
      rw [ht] at h t1 t4 t5
      cases o2 <;> simp only at h t1 t5
      case accepted =>
        by_cases hl3 : s.pomLocked = true
        · rw [if_pos hl3] at h; cases h
        rw [if_neg hl3] at h
        cases hp : handlePOMs c v (u.pomACCs ++ u.pomCONs) s.pomDB with
        | mk o3 m3 =>
        rw [hp] at h p1 p4 p5
        cases o3 <;> simp only at h p1 p5
        case accepted =>
          refine ⟨⟨by simpa using hl, by simpa using hl2, by simpa using hl3⟩, ⟨r1.1 trivial, t1.1 trivial, p1.1 trivial⟩, ?_⟩
          rw [done_all r2 (r5.2 trivial)] at r4
          rw [done_all t2 (t5.2 trivial)] at t4
          rw [done_all p2 (p5.2 trivial)] at p4
          simp only at r4 t4 p4
          rw [← (Prod.mk.inj h).2, r4, t4, p4]
          rfl
        all_goals cases (Prod.mk.inj h).1
      all_goals cases (Prod.mk.inj h).1
    all_goals cases (Prod.mk.inj h).1
  · rintro ⟨⟨h1, h2, h3⟩, ⟨q1, q2, q3⟩, rfl⟩
    have e1 : handleRevs X c v u.revs s.crvDB = (.accepted, afterRevs X u.revs s.crvDB) := by
      rw [done_all r2 (r5.2 (r1.2 q1))] at r4
      rw [← r4, ← r1.2 q1]
    have e2 : handleSTHs X c v u.sths s.sthDB = (.accepted, u.sths.foldl (recordSTH X) s.sthDB) := by
      rw [done_all t2 (t5.2 (t1.2 q2))] at t4
      rw [← t4, ← t1.2 q2]
    have e3 : handlePOMs c v (u.pomACCs ++ u.pomCONs) s.pomDB = (.accepted, (u.pomACCs ++ u.pomCONs).foldl recordPOM s.pomDB) := by
      rw [done_all p2 (p5.2 (p1.2 q3))] at p4
      rw [← p4, ← p1.2 q3]
    simp only [h1, h2, h3, e1, e2, e3, Bool.false_eq_true, if_false]
    simp [applied, h1, h2, h3]

/-- C50 as stated: an accepted update was verified completely. -/
theorem C50_accepted_was_verified (u : ClientUpdate) (s s' : ClientState)
    (h : handleUpdate X c true u s = (.accepted, s')) :
    (∀ g, g ∈ u.revs ∨ g ∈ u.sths ∨ g ∈ u.pomACCs ∨ g ∈ u.pomCONs → g.verify c = .ok) ∧
    ∀ pre r post, u.revs = pre ++ r :: post → RevPasses X c (afterRevs X pre s.crvDB) r := by
  obtain ⟨_, hp, _⟩ := (C50_accepted_iff X c true u s s').1 h
  refine ⟨?_, fun pre r post hr => (hp.revs pre r post hr).2⟩
  rintro g (hg | hg | hg | hg)
  · obtain ⟨pre, post, hpq⟩ := List.append_of_mem hg
    exact (hp.revs pre g post hpq).1 rfl
  · exact (hp.sths g hg).1 rfl
  · exact hp.poms g (List.mem_append_left _ hg) rfl
  · exact hp.poms g (List.mem_append_right _ hg) rfl

/-! ### Every outcome -/

/-- The locks and databases after any call: what was applied is a prefix of the update, all of which passed. If the call
did not return true and did not wait, one more lock is taken. -/
structure Effect (v : Bool) (u : ClientUpdate) (s : ClientState) (r : UpdRes) (s' : ClientState) : Prop where
  part : ∃ rd rr td tr pd pr, u.revs = rd ++ rr ∧ u.sths = td ++ tr ∧ u.pomACCs ++ u.pomCONs = pd ++ pr ∧
    RevsPass X c v rd s.crvDB ∧ (∀ g ∈ td, SthPasses X c v g) ∧ (∀ g ∈ pd, v = true → g.verify c = .ok) ∧
    s'.crvDB = afterRevs X rd s.crvDB ∧ s'.sthDB = td.foldl (recordSTH X) s.sthDB ∧ s'.pomDB = pd.foldl recordPOM s.pomDB
  crvL : s.crvLocked = true → s'.crvLocked = true
  sthL : s.sthLocked = true → s'.sthLocked = true
  pomL : s.pomLocked = true → s'.pomLocked = true
  stuck : r ≠ .accepted → s'.crvLocked = true ∨ s'.sthLocked = true ∨ s'.pomLocked = true

theorem handleUpdate_effect (v : Bool) (u : ClientUpdate) (s : ClientState) :
    Effect X c v u s (handleUpdate X c v u s).1 (handleUpdate X c v u s).2 := by
  obtain ⟨r1, rd, rr, r2, r3, r4, r5⟩ := handleRevs_spec X c v u.revs s.crvDB
  obtain ⟨t1, td, tr, t2, t3, t4, t5⟩ := handleSTHs_spec X c v u.sths s.sthDB
  obtain ⟨p1, pd, pr, p2, p3, p4, p5⟩ := handlePOMs_spec c v (u.pomACCs ++ u.pomCONs) s.pomDB
  have r0 : RevsPass X c v [] s.crvDB := fun pre r post h => absurd h (by simp)
  unfold handleUpdate
  by_cases hl : s.crvLocked = true
  · rw [if_pos hl]
    exact ⟨⟨[], u.revs, [], u.sths, [], _, rfl, rfl, rfl, r0, by simp, by simp, rfl, rfl, rfl⟩, id, id, id, fun _ => .inl hl⟩
  rw [if_neg hl]
  cases hr : handleRevs X c v u.revs s.crvDB with
  | mk o m =>
  rw [hr] at r4
  have hfail : Effect X c v u s o { s with crvDB := m, crvLocked := true } :=
    ⟨⟨rd, rr, [], u.sths, [], _, r2, rfl, rfl, r3, by simp, by simp, r4, rfl, rfl⟩, fun _ => rfl, id, id, fun _ => .inl rfl⟩
  cases o
  case rejected => exact hfail
  case panicked => exact hfail
  case blocked => exact hfail
  simp only
  by_cases hl2 : s.sthLocked = true
  · rw [if_pos hl2]
    exact ⟨⟨rd, rr, [], u.sths, [], _, r2, rfl, rfl, r3, by simp, by simp, r4, rfl, rfl⟩, id, id, id, fun _ => .inr (.inl hl2)⟩
  rw [if_neg hl2]
  cases ht : handleSTHs X c v u.sths s.sthDB with
  | mk o2 m2 =>
  rw [ht] at t4
  have hfail : Effect X c v u s o2 { s with crvDB := m, sthDB := m2, sthLocked := true } :=
    ⟨⟨rd, rr, td, tr, [], _, r2, t2, rfl, r3, t3, by simp, r4, t4, rfl⟩, id, fun _ => rfl, id, fun _ => .inr (.inl rfl)⟩
  cases o2
  case rejected => exact hfail
  case panicked => exact hfail
  case blocked => exact hfail
  simp only
  by_cases hl3 : s.pomLocked = true
  · rw [if_pos hl3]
    exact ⟨⟨rd, rr, td, tr, [], _, r2, t2, rfl, r3, t3, by simp, r4, t4, rfl⟩, id, id, id, fun _ => .inr (.inr hl3)⟩
  rw [if_neg hl3]
  cases hp : handlePOMs c v (u.pomACCs ++ u.pomCONs) s.pomDB with
  | mk o3 m3 =>
  rw [hp] at p4
  have hfail : Effect X c v u s o3 { s with crvDB := m, sthDB := m2, pomDB := m3, pomLocked := true } :=
    ⟨⟨rd, rr, td, tr, pd, pr, r2, t2, p2, r3, t3, p3, r4, t4, p4⟩, id, id, fun _ => rfl, fun _ => .inr (.inr rfl)⟩
  cases o3
  case rejected => exact hfail
  case panicked => exact hfail
  case blocked => exact hfail
  exact ⟨⟨rd, rr, td, tr, pd, pr, r2, t2, p2, r3, t3, p3, r4, t4, p4⟩, id, id, id, fun h => absurd rfl h⟩

/-! ### C49: rejected updates -/

theorem stuck_forever (v : Bool) (us : List ClientUpdate) (s : ClientState) (h : ¬ Free s) :
    UpdRes.accepted ∉ (runUpdates X c v us s).1 ∧ ¬ Free (runUpdates X c v us s).2 := by
  induction us generalizing s with
  | nil => exact ⟨by simp [runUpdates], h⟩
  | cons u t ih =>
    have he := handleUpdate_effect X c v u s
    have hn : ¬ Free (handleUpdate X c v u s).2 := by
      rintro ⟨h1, h2, h3⟩
      refine h ⟨?_, ?_, ?_⟩
      · cases hx : s.crvLocked with | false => rfl | true => rw [he.crvL hx] at h1; cases h1
      · cases hx : s.sthLocked with | false => rfl | true => rw [he.sthL hx] at h2; cases h2
      · cases hx : s.pomLocked with | false => rfl | true => rw [he.pomL hx] at h3; cases h3
    have ha : (handleUpdate X c v u s).1 ≠ .accepted := by
      intro ha
      exact h ((C50_accepted_iff X c v u s (handleUpdate X c v u s).2).1 (by rw [← ha])).1
    obtain ⟨i1, i2⟩ := ih _ hn
    refine ⟨?_, i2⟩
    simp only [runUpdates, List.mem_cons, not_or]
    exact ⟨fun hh => ha hh.symm, i1⟩

/-- C49 is false: after one update that is not accepted (rejected, or panicked and recovered) no update is ever accepted
again, whatever the client is sent, with verification on or off. -/
theorem C49_violated_never_again (v v' : Bool) (u : ClientUpdate) (s : ClientState)
    (h : (handleUpdate X c v u s).1 ≠ .accepted) (us : List ClientUpdate) :
    UpdRes.accepted ∉ (runUpdates X c v' us (handleUpdate X c v u s).2).1 := by
  refine (stuck_forever X c v' us _ ?_).1
  rintro ⟨h1, h2, h3⟩
  have he := (handleUpdate_effect X c v u s).stuck h
  rw [h1, h2, h3] at he
  simp at he

/-- C49 is false: when a revocation is rejected, every later call waits for the lock and does nothing else. -/
theorem C49_violated_blocks (v v' : Bool) (u u' : ClientUpdate) (s : ClientState) (hf : Free s)
    (h : ¬ RevsPass X c v u.revs s.crvDB) :
    handleUpdate X c v' u' (handleUpdate X c v u s).2 = (.blocked, (handleUpdate X c v u s).2) := by
  obtain ⟨r1, _⟩ := handleRevs_spec X c v u.revs s.crvDB
  have hl : (handleUpdate X c v u s).2.crvLocked = true := by
    unfold handleUpdate
    rw [if_neg (by rw [hf.1]; simp)]
    cases hr : handleRevs X c v u.revs s.crvDB with
    | mk o m =>
    rw [hr] at r1
    cases o
    case accepted => exact absurd (r1.1 rfl) h
    all_goals rfl
  generalize (handleUpdate X c v u s).2 = s1 at hl
  unfold handleUpdate
  rw [if_pos hl]

/-- C49 is false: a rejected update leaves the databases changed. If its first revocation passes and is the first one of
that CA, the client keeps the delta though the second revocation makes it reject the update. -/
theorem C49_violated_databases_changed (v : Bool) (u : ClientUpdate) (s : ClientState) (r1 r2 : GossipObj) (t : List GossipObj)
    (hf : Free s) (hu : u.revs = r1 :: r2 :: t) (hn : s.crvDB.get r1.payload.p0 = none)
    (h1 : v = true → r1.verify c = .ok) (h2 : RevPasses X c s.crvDB r1) (h3 : v = true ∧ ∃ e, r2.verify c = .err e) :
    (handleUpdate X c v u s).1 = .rejected ∧
    (handleUpdate X c v u s).2.crvDB.get r1.payload.p0 = some (getSRHandDCRV X r1).2 := by
  obtain ⟨rfl, e, he⟩ := h3
  have hr : handleRevs X c true u.revs s.crvDB = (.rejected, applyDelta s.crvDB (deltaOf X r1)) := by
    rw [hu]
    have hc : check c true r1 = .ok := (check_ok c true r1).2 h1
    have hc2 : check c true r2 = .err e := by simp [check, he]
    simp only [handleRevs, hc, hc2, show verifySRH X c s.crvDB (getSRHandDCRV X r1).1 (getSRHandDCRV X r1).2 r1.payload.p0
      r1.period = .ok from h2]
    rfl
  unfold handleUpdate
  rw [if_neg (by rw [hf.1]; simp), hr]
  refine ⟨rfl, ?_⟩
  simp only [applyDelta_get, hn, deltaOf, if_true, Option.none_or]

/-- C49, what holds: whatever the outcome, only objects that passed entered the databases, namely the first ones of each
list, and everything older is treated as by an accepted update. Missing: see the `violated` theorems. -/
theorem C49_only_checked_applied_partial (v : Bool) (u : ClientUpdate) (s : ClientState) :
    ∃ u', u'.revs <+: u.revs ∧ u'.sths <+: u.sths ∧ (u'.pomACCs ++ u'.pomCONs) <+: (u.pomACCs ++ u.pomCONs) ∧
      Passes X c v u' s ∧ (handleUpdate X c v u s).2.crvDB = (applied X u' s).crvDB ∧
      (handleUpdate X c v u s).2.sthDB = (applied X u' s).sthDB ∧ (handleUpdate X c v u s).2.pomDB = (applied X u' s).pomDB := by
  obtain ⟨rd, rr, td, tr, pd, pr, h1, h2, h3, h4, h5, h6, h7, h8, h9⟩ := (handleUpdate_effect X c v u s).part
  refine ⟨⟨td, rd, [], pd, [], []⟩, ⟨rr, h1.symm⟩, ⟨tr, h2.symm⟩, ⟨pr, ?_⟩, ⟨h4, h5, ?_⟩, h7, h8, ?_⟩
  · simpa using h3.symm
  · simpa using h6
  · simpa [applied] using h9

/-! ### C48 at the client -/

theorem afterRevs_get (l : List GossipObj) (m : GoMap Str BitSet) (ca : Str) :
    (afterRevs X l m).get ca = (m.get ca).or (((l.map (deltaOf X)).find? fun x => x.1 = ca).map (·.2)) := applyAll_get _ _ _

/-- C48 at the client, the part that holds: after an accepted update the vector of a CA is the one known before, or the
first delta of this CA in the update. Missing: the later ones. -/
theorem C48_client_first_delta_partial (v : Bool) (u : ClientUpdate) (s s' : ClientState)
    (h : handleUpdate X c v u s = (.accepted, s')) (ca : Str) :
    s'.crvDB.get ca = (s.crvDB.get ca).or (((u.revs.map (deltaOf X)).find? fun x => x.1 = ca).map (·.2)) := by
  obtain ⟨_, _, rfl⟩ := (C50_accepted_iff X c v u s s').1 h
  exact afterRevs_get X u.revs s.crvDB ca

theorem vector_fixed (v : Bool) (us : List ClientUpdate) (s : ClientState) (ca : Str) (b : BitSet)
    (hb : s.crvDB.get ca = some b) : (runUpdates X c v us s).2.crvDB.get ca = some b := by
  induction us generalizing s with
  | nil => exact hb
  | cons u t ih =>
    refine ih _ ?_
    obtain ⟨rd, rr, td, tr, pd, pr, _, _, _, _, _, _, h7, _, _⟩ := (handleUpdate_effect X c v u s).part
    rw [h7, afterRevs_get, hb]
    rfl

/-- C48 is false at the client: once it has a vector of a CA no update changes it, in any history of updates. -/
theorem C48_violated_client (v : Bool) (us : List ClientUpdate) (s : ClientState) (ca : Str) (b : BitSet)
    (hb : s.crvDB.get ca = some b) : (runUpdates X c v us s).2.crvDB.get ca = some b := vector_fixed X c v us s ca b hb

/-! ### C51: certificates -/

/-- What makes an embedded entry count. -/
structure GoodEntry (s : ClientState) (cert : Cert) (e : LoggerInfo) : Prop where
  free : s.pomDB.get e.sth.signer = none
  verifies : e.sth.verify c = .ok
  tree : ∃ d, treeInfo X e.sth = some d ∧ (s.sthDB.get (e.sth.payload.p0 ++ go!"@" ++ e.sth.period)).getD [] = d.rootHash ∧
    verifyPOI L.sha256 (hexPrefix d.rootHash) e.poi.poi cert.parseTBS = true

theorem entry_good (s : ClientState) (cert : Cert) (e : LoggerInfo) :
    entryFaulty X c s cert e = some false ↔ GoodEntry X c s cert e := by
  unfold entryFaulty
  constructor
  · intro h
    by_cases hp : s.pomDB.has e.sth.signer = true
    · rw [if_pos hp] at h; cases h
    rw [if_neg hp] at h
    cases hv : e.sth.verify c with
    | panic => rw [hv] at h; cases h
    | err x => rw [hv] at h; cases h
    | ok =>
      rw [hv] at h
      cases ht : treeInfo X e.sth with
      | none => rw [ht] at h; cases h
      | some d =>
        rw [ht] at h
        simp only at h
        by_cases hr : (s.sthDB.get (sthKey e.sth)).getD [] = d.rootHash
        · rw [hr] at h
          refine ⟨(has_false _ _).1 (by simpa using hp), hv, d, ht, hr, ?_⟩
          simpa using h
        · rw [if_pos hr] at h; cases h
  · rintro ⟨h1, h2, d, h3, h4, h5⟩
    have h4 : (s.sthDB.get (sthKey e.sth)).getD [] = d.rootHash := h4
    rw [if_neg (by rw [(has_false _ _).2 h1]; simp)]
    simp [h2, h3, h4, h5]

/-- Verifying the entry does not panic (it panics only in the signature library, for instance under a key that is not
registered). -/
def NoPanic (s : ClientState) (e : LoggerInfo) : Prop := s.pomDB.get e.sth.signer = none → e.sth.verify c ≠ .panic

theorem entry_panic (s : ClientState) (cert : Cert) (e : LoggerInfo) : entryFaulty X c s cert e = none ↔ ¬ NoPanic c s e := by
  unfold entryFaulty NoPanic
  by_cases hp : s.pomDB.has e.sth.signer = true
  · obtain ⟨g, hg⟩ := (GoMap.has_iff _ _).1 hp
    simp [hp, hg]
  · have hn : s.pomDB.get e.sth.signer = none := (has_false _ _).1 (by simpa using hp)
    simp only [hp, Bool.false_eq_true, if_false, hn, true_implies]
    cases hv : e.sth.verify c with
    | panic => simp
    | err x => simp
    | ok =>
      cases ht : treeInfo X e.sth with
      | none => simp
      | some d =>
        simp only [ne_eq, reduceCtorEq, not_false_eq_true, not_true_eq_false, iff_false]
        split <;> simp

theorem count_none (s : ClientState) (cert : Cert) (l : List LoggerInfo) :
    countFaulty X c s cert l = none ↔ ∃ e ∈ l, ¬ NoPanic c s e := by
  induction l with
  | nil => simp [countFaulty]
  | cons e t ih =>
    simp only [countFaulty, List.mem_cons, exists_eq_or_imp, ← entry_panic X c s cert e]
    cases he : entryFaulty X c s cert e with
    | none => simp
    | some b => simp [ih]

theorem count_le (s : ClientState) (cert : Cert) (l : List LoggerInfo) (n : Nat) (h : countFaulty X c s cert l = some n) :
    n ≤ l.length ∧ (n ≠ l.length ↔ ∃ e ∈ l, GoodEntry X c s cert e) := by
  induction l generalizing n with
  | nil => simp only [countFaulty, Option.some.injEq] at h; subst h; simp
  | cons e t ih =>
    simp only [countFaulty] at h
    cases he : entryFaulty X c s cert e with
    | none => rw [he] at h; cases h
    | some b =>
      rw [he] at h
      obtain ⟨k, hk, hn⟩ := Option.map_eq_some_iff.1 h
      obtain ⟨i1, i2⟩ := ih k hk
      subst hn
      simp only [List.mem_cons, exists_eq_or_imp, ← entry_good X c s cert e, he, List.length_cons]
      cases b with
      | true =>
        simp only [if_true, Option.some.injEq, Bool.true_eq_false, false_or]
        refine ⟨by omega, ?_⟩
        rw [← i2]
        omega
      | false =>
        simp only [Bool.false_eq_true, if_false, true_or, iff_true]
        exact ⟨by omega, by omega⟩

theorem verifyExt_eq (s : ClientState) (cert : Cert) : verifyCTngExt X c s cert =
    match countFaulty X c s cert (cert.parseExt X).loggers with
    | none => .panic
    | some n =>
      if n = (cert.parseExt X).loggers.length then .reject
      else
        match s.crvDB.get cert.issuerCN with
        | none => .panic
        | some v => if v.test (cert.rid X) then .reject else .accept := rfl

/-- C51, for a client that knows a vector of the issuer and no panic in the signature library: the certificate is accepted
exactly when one of its entries is good and its bit is not set; otherwise it is rejected. Missing for the full property:
the two cases in which the call panics. -/
theorem C51_certificate_iff_partial (s : ClientState) (cert : Cert) (v : BitSet) (hv : s.crvDB.get cert.issuerCN = some v)
    (hp : ∀ e ∈ (cert.parseExt X).loggers, NoPanic c s e) :
    (verifyCTngExt X c s cert = .accept ↔
      (∃ e ∈ (cert.parseExt X).loggers, GoodEntry X c s cert e) ∧ v.test (cert.rid X) = false) ∧
    (verifyCTngExt X c s cert = .accept ∨ verifyCTngExt X c s cert = .reject) := by
  rw [verifyExt_eq]
  cases hcount : countFaulty X c s cert (cert.parseExt X).loggers with
  | none =>
    obtain ⟨e, he, hn⟩ := (count_none X c s cert _).1 hcount
    exact absurd (hp e he) hn
  | some n =>
    obtain ⟨_, h2⟩ := count_le X c s cert _ n hcount
    simp only [hv]
    rw [← h2]
    by_cases hn : n = (cert.parseExt X).loggers.length
    · simp [hn]
    · cases ht : v.test (cert.rid X) <;> simp [hn]

/-- C51, soundness without conditions: an accepted certificate has a good entry, no entry panics, the vector of its
issuer is known and its bit is not set. -/
theorem C51_accepted_partial (s : ClientState) (cert : Cert) (h : verifyCTngExt X c s cert = .accept) :
    (∃ e ∈ (cert.parseExt X).loggers, GoodEntry X c s cert e) ∧
    (∀ e ∈ (cert.parseExt X).loggers, NoPanic c s e) ∧
    ∃ v, s.crvDB.get cert.issuerCN = some v ∧ v.test (cert.rid X) = false := by
  have hp : ∀ e ∈ (cert.parseExt X).loggers, NoPanic c s e := by
    intro e he
    refine Classical.byContradiction fun hn => ?_
    rw [verifyCTngExt, (count_none X c s cert _).2 ⟨e, he, hn⟩] at h
    cases h
  cases hv : s.crvDB.get cert.issuerCN with
  | none =>
    rw [verifyExt_eq] at h
    cases hcount : countFaulty X c s cert (cert.parseExt X).loggers with
    | none => rw [hcount] at h; cases h
    | some n =>
      rw [hcount] at h
      simp only [hv] at h
      split at h <;> cases h
  | some v =>
    obtain ⟨h1, h2⟩ := (C51_certificate_iff_partial X c s cert v hv hp).1.1 h
    exact ⟨h1, hp, v, rfl, h2⟩

/-- C51: positions outside the vector are not revoked. If the id of a certificate is not below the length of the vector of its
issuer, it is accepted exactly when one of its entries is good, whatever is stored behind the vector's end. -/
theorem C51_outside_vector_partial (s : ClientState) (cert : Cert) (v : BitSet) (hv : s.crvDB.get cert.issuerCN = some v)
    (hp : ∀ e ∈ (cert.parseExt X).loggers, NoPanic c s e) (hlen : v.len ≤ cert.rid X) :
    verifyCTngExt X c s cert = .accept ↔ ∃ e ∈ (cert.parseExt X).loggers, GoodEntry X c s cert e := by
  rw [(C51_certificate_iff_partial X c s cert v hv hp).1]
  have : v.test (cert.rid X) = false := by
    unfold BitSet.test
    rw [decide_eq_false (by omega), Bool.false_and]
  simp [this]

/-- C51 is false: a certificate with a good entry from a CA of which no revocation was seen yet (so it is not revoked) is
not accepted: the call panics. -/
theorem C51_violated_no_vector (s : ClientState) (cert : Cert) (hv : s.crvDB.get cert.issuerCN = none)
    (hg : ∃ e ∈ (cert.parseExt X).loggers, GoodEntry X c s cert e) : verifyCTngExt X c s cert = .panic := by
  rw [verifyExt_eq]
  cases hcount : countFaulty X c s cert (cert.parseExt X).loggers with
  | none => rfl
  | some n =>
    simp only [hv]
    rw [if_neg ((count_le X c s cert _ n hcount).2.2 hg)]

/-- C51 is false: one entry whose verification panics brings the call down, whatever the other entries are. -/
theorem C51_violated_bad_entry_panics (s : ClientState) (cert : Cert)
    (h : ∃ e ∈ (cert.parseExt X).loggers, s.pomDB.get e.sth.signer = none ∧ e.sth.verify c = .panic) :
    verifyCTngExt X c s cert = .panic := by
  obtain ⟨e, he, h1, h2⟩ := h
  rw [verifyCTngExt, (count_none X c s cert _).2 ⟨e, he, fun hn => hn h1 h2⟩]

/-! ### C52: revocations at the client -/

/-- C52, the part that holds: a bit of the client's vector is effective forever, whatever updates follow; in particular
the bits of the first delta of a CA. Missing: `C52_violated_later_revocation`. -/
theorem C52_first_delta_effective_partial (v v' : Bool) (u : ClientUpdate) (s s' : ClientState) (r : Nat) (ca : Str) (d : BitSet)
    (h : handleUpdate X c v u s = (.accepted, s')) (hn : s.crvDB.get ca = none)
    (hd : (u.revs.map (deltaOf X)).find? (fun x => x.1 = ca) = some (ca, d)) (hr : d.test r = true)
    (us : List ClientUpdate) (cert : Cert) (hc : cert.issuerCN = ca) (hrid : cert.rid X = r) :
    verifyCTngExt X c (runUpdates X c v' us s').2 cert ≠ .accept := by
  have hs : s'.crvDB.get ca = some d := by
    rw [C48_client_first_delta_partial X c v u s s' h, hn, hd]
    rfl
  intro ha
  obtain ⟨_, _, b, hb, ht⟩ := C51_accepted_partial X c _ cert ha
  rw [hc, vector_fixed X c v' us s' ca d hs] at hb
  cases hb
  rw [hrid, hr] at ht
  cases ht

/-- C52 is false: if the client has a vector of the CA without bit `r`, then after any history of updates, accepted ones
with bit `r` included, it accepts the revoked certificate as long as one entry is good. -/
theorem C52_violated_later_revocation (v : Bool) (us : List ClientUpdate) (s : ClientState) (b : BitSet) (cert : Cert)
    (hb : s.crvDB.get cert.issuerCN = some b) (hr : b.test (cert.rid X) = false)
    (hp : ∀ e ∈ (cert.parseExt X).loggers, NoPanic c (runUpdates X c v us s).2 e)
    (hg : ∃ e ∈ (cert.parseExt X).loggers, GoodEntry X c (runUpdates X c v us s).2 cert e) :
    verifyCTngExt X c (runUpdates X c v us s).2 cert = .accept :=
  (C51_certificate_iff_partial X c _ cert b (vector_fixed X c v us s _ b hb) hp).1.2 ⟨hg, hr⟩

/-! ### C53: loggers with a proof of misbehaviour -/

/-- C53, the part that holds: an entry that names in its `Signer` field a logger with a proof never counts: a certificate
whose entries all do so is rejected. Missing: the field is not signed. -/
theorem C53_named_signer_partial (s : ClientState) (cert : Cert) :
    (∀ e, (s.pomDB.get e.sth.signer).isSome = true → ¬ GoodEntry X c s cert e) ∧
    ((∀ e ∈ (cert.parseExt X).loggers, (s.pomDB.get e.sth.signer).isSome = true) →
      verifyCTngExt X c s cert = .reject) := by
  have h1 : ∀ e, (s.pomDB.get e.sth.signer).isSome = true → ¬ GoodEntry X c s cert e := by
    intro e he hg
    rw [hg.free] at he
    cases he
  refine ⟨h1, fun h => ?_⟩
  rw [verifyExt_eq]
  cases hcount : countFaulty X c s cert (cert.parseExt X).loggers with
  | none =>
    obtain ⟨e, he, hn⟩ := (count_none X c s cert _).1 hcount
    refine absurd (fun hx => ?_) hn
    have := h e he
    rw [hx] at this
    cases this
  | some n =>
    obtain ⟨_, h2⟩ := count_le X c s cert _ n hcount
    simp only
    by_cases hn : n = (cert.parseExt X).loggers.length
    · rw [if_pos hn]
    · obtain ⟨e, he, hg⟩ := h2.1 hn
      exact absurd hg (h1 e (h e he))

/-- An entry whose object names another signer. -/
def LoggerInfo.claim (e : LoggerInfo) (x : Str) : LoggerInfo := { e with sth := { e.sth with signer := x } }

/-- C53 is false: an entry that was good before there was a proof against its logger is good again once its unsigned
`Signer` field names anyone without a proof. -/
theorem C53_violated_rename (s s' : ClientState) (cert : Cert) (e : LoggerInfo) (hg : GoodEntry X c s cert e) (x : Str)
    (hs : s'.sthDB = s.sthDB) (hx : s'.pomDB.get x = none) : GoodEntry X c s' cert (e.claim x) := by
  obtain ⟨_, h2, h3⟩ := hg
  refine ⟨hx, ?_, ?_⟩
  · exact h2
  · rw [hs]
    exact h3

/-- C53 is false for whole certificates: a certificate that carries such an entry is accepted by a client that has a proof
against the logger who made the tree head. -/
theorem C53_violated_accepted (s s' : ClientState) (cert cert' : Cert) (e : LoggerInfo) (hg : GoodEntry X c s cert e) (x : Str)
    (hs : s'.sthDB = s.sthDB) (_ : (s'.pomDB.get e.sth.signer).isSome = true) (hx : s'.pomDB.get x = none)
    (hsub : cert'.rawSubject = cert.rawSubject) (hext : (cert'.parseExt X).loggers = [e.claim x]) (b : BitSet)
    (hb : s'.crvDB.get cert'.issuerCN = some b) (hr : b.test (cert'.rid X) = false) :
    verifyCTngExt X c s' cert' = .accept := by
  have hg' := C53_violated_rename X c s s' cert e hg x hs hx
  have hg'' : GoodEntry X c s' cert' (e.claim x) := by
    obtain ⟨h1, h2, d, h3, h4, h5⟩ := hg'
    refine ⟨h1, h2, d, h3, h4, ?_⟩
    have hb : cert'.parseTBS.block = cert.parseTBS.block := hsub
    unfold verifyPOI at h5 ⊢
    rw [hb]
    exact h5
  refine (C51_certificate_iff_partial X c s' cert' b hb ?_).1.2 ⟨⟨e.claim x, by rw [hext]; exact List.mem_singleton.2 rfl, hg''⟩, hr⟩
  intro e' he' _
  rw [hext] at he'
  rw [List.mem_singleton.1 he', hg''.verifies]
  simp

/-! ### C81: restarts -/

/-- encoding/json on maps: with ASCII keys (and, for strings, ASCII values) decoding gives the same map back. -/
structure DiskLaws (D : DiskLib) : Prop where
  str : ∀ m, (∀ k v, m.get k = some v → Ascii k ∧ Ascii v) → ∃ m', D.decStr (D.encStr m) = some m' ∧ ∀ k, m'.get k = m.get k
  bytes : ∀ m, (∀ k v, m.get k = some v → Ascii k) → ∃ m', D.decBytes (D.encBytes m) = some m' ∧ ∀ k, m'.get k = m.get k

theorem mapVals_get {V W : Type} (f : V → W) (m : GoMap Str V) (k : Str) : (mapVals f m).get k = (m.get k).map f := by
  have hiff : ∀ w, (mapVals f m).get k = some w ↔ (m.get k).map f = some w := by
    intro w
    rw [GoMap.get_eq_some_iff, Option.map_eq_some_iff]
    constructor
    · intro h
      obtain ⟨e, he, heq⟩ := List.mem_map.1 h
      obtain ⟨h1, h2⟩ := Prod.mk.inj heq
      exact ⟨e.2, (GoMap.get_eq_some_iff _ _ _).2 (by rw [← h1]; exact he), h2⟩
    · rintro ⟨v, hv, rfl⟩
      exact List.mem_map.2 ⟨(k, v), (GoMap.get_eq_some_iff _ _ _).1 hv, rfl⟩
  cases h : (m.get k).map f with
  | some w => exact (hiff w).2 h
  | none =>
    cases h' : (mapVals f m).get k with
    | none => rfl
    | some w => rw [(hiff w).1 h'] at h; cases h

/-- C81, what holds: after saving and restarting the client has the same tree heads and vectors. Missing: the proofs of
misbehaviour. -/
theorem C81_restart_partial (hX : X.Laws) (D : DiskLib) (hD : DiskLaws D) (s : ClientState)
    (h1 : ∀ k v, s.sthDB.get k = some v → Ascii k ∧ Ascii v) (h2 : ∀ k v, s.crvDB.get k = some v → Ascii k ∧ v.WF) :
    ∃ s', Client.restart X D (Client.save X D s) = some s' ∧ Free s' ∧ (∀ k, s'.sthDB.get k = s.sthDB.get k) ∧
      ∀ k, s'.crvDB.get k = s.crvDB.get k := by
  obtain ⟨m1, d1, g1⟩ := hD.str s.sthDB h1
  obtain ⟨m2, d2, g2⟩ := hD.bytes (mapVals X.marshal s.crvDB) (by
    intro k v hk
    rw [mapVals_get] at hk
    obtain ⟨b, hb, _⟩ := Option.map_eq_some_iff.1 hk
    exact (h2 k b hb).1)
  refine ⟨_, by simp only [Client.restart, Client.save, d2]; rfl, ⟨rfl, rfl, rfl⟩, fun k => ?_, fun k => ?_⟩
  · simp only [d1, Option.getD_some]
    exact g1 k
  · simp only
    rw [mapVals_get, g2, mapVals_get, Option.map_map]
    cases hk : s.crvDB.get k with
    | none => rfl
    | some b => simp [hX.bits b (h2 k b hk).2]

/-- C81 is false: whatever was saved, a restarted client has no proof of misbehaviour; a logger entry refused before
because of a proof is judged as if there were none. -/
theorem C81_violated_proofs_lost (D : DiskLib) (s s' : ClientState) (h : Client.restart X D (Client.save X D s) = some s') (k : Str) :
    s'.pomDB.get k = none := by
  have hp : s'.pomDB = .empty := by
    unfold Client.restart Client.save at h
    simp only at h
    cases hd : D.decBytes (D.encBytes (mapVals X.marshal s.crvDB)) with
    | none => rw [hd] at h; cases h
    | some m => rw [hd] at h; rw [← Option.some.inj h]; rfl
  rw [hp]
  rfl

/-! ### C82, C83: what a client believes -/

/-- An update with nothing in it. -/
def emptyUpdate : ClientUpdate := ⟨[], [], [], [], [], []⟩

theorem revsPass_nil (v : Bool) (m : GoMap Str BitSet) : RevsPass X c v [] m := fun pre r post h => absurd h (by simp)

/-- C82 is false: every object that verifies, for instance a tree head of an honest logger, is taken as a proof of
misbehaviour of the entity it names when a monitor files it under the proofs; every certificate relying on entries of that
logger is then rejected. -/
theorem C82_violated_any_object_is_a_proof (s : ClientState) (hf : Free s) (g : GossipObj) (hv : g.verify c = .ok) :
    ∃ s', handleUpdate X c true { emptyUpdate with pomCONs := [g] } s = (.accepted, s') ∧
      s'.pomDB.get g.payload.p0 = some g ∧
      ∀ cert, (∀ e ∈ (cert.parseExt X).loggers, e.sth.signer = g.payload.p0) → verifyCTngExt X c s' cert = .reject := by
  have hget : (applied X { emptyUpdate with pomCONs := [g] } s).pomDB.get g.payload.p0 = some g := GoMap.get_set_self _ _ _
  refine ⟨_, (C50_accepted_iff X c true _ s _).2 ⟨hf, ⟨revsPass_nil X c _ _, ?_, ?_⟩, rfl⟩, hget, fun cert hc => ?_⟩
  · intro x hx; cases hx
  · intro x hx _
    rw [List.mem_singleton.1 (show x ∈ [g] from hx)]
    exact hv
  · refine (C53_named_signer_partial X c _ cert).2 fun e he => ?_
    rw [hc e he, hget]
    rfl

/-- What the databases of a client hold. -/
structure DBInv (φ ψ : GossipObj → Prop) (s : ClientState) : Prop where
  pom : ∀ k g, s.pomDB.get k = some g → k = g.payload.p0 ∧ φ g
  sth : ∀ k r, s.sthDB.get k = some r → ∃ g d, k = sthKey g ∧ treeInfo X g = some d ∧ r = d.rootHash ∧ ψ g

theorem foldl_pom (φ : GossipObj → Prop) (l : List GossipObj) (m : GoMap Str GossipObj)
    (hm : ∀ k g, m.get k = some g → k = g.payload.p0 ∧ φ g) (hl : ∀ g ∈ l, φ g) :
    ∀ k g, (l.foldl recordPOM m).get k = some g → k = g.payload.p0 ∧ φ g := by
  induction l generalizing m with
  | nil => exact hm
  | cons x t ih =>
    refine ih _ ?_ fun g hg => hl g (List.mem_cons_of_mem _ hg)
    intro k g hk
    rcases get_set_cases hk with ⟨rfl, rfl⟩ | hk
    · exact ⟨rfl, hl _ List.mem_cons_self⟩
    · exact hm k g hk

theorem foldl_sth (ψ : GossipObj → Prop) (l : List GossipObj) (m : GoMap Str Str)
    (hm : ∀ k r, m.get k = some r → ∃ g d, k = sthKey g ∧ treeInfo X g = some d ∧ r = d.rootHash ∧ ψ g)
    (hl : ∀ g ∈ l, ψ g ∧ (treeInfo X g).isSome = true) :
    ∀ k r, (l.foldl (recordSTH X) m).get k = some r → ∃ g d, k = sthKey g ∧ treeInfo X g = some d ∧ r = d.rootHash ∧ ψ g := by
  induction l generalizing m with
  | nil => exact hm
  | cons x t ih =>
    refine ih _ ?_ fun g hg => hl g (List.mem_cons_of_mem _ hg)
    intro k r hk
    rcases get_set_cases hk with ⟨rfl, rfl⟩ | hk
    · obtain ⟨h1, h2⟩ := hl x List.mem_cons_self
      obtain ⟨d, hd⟩ := Option.isSome_iff_exists.1 h2
      exact ⟨x, d, rfl, hd, by rw [hd]; rfl, h1⟩
    · exact hm k r hk

/-- Over any history of updates with verification, accepted or not, the databases hold only what came from objects that
verified and, if the updates file only objects of certain kinds, of these kinds. -/
theorem db_run (φ ψ : GossipObj → Prop) (us : List ClientUpdate) (s : ClientState) (hs : DBInv X φ ψ s)
    (hu : ∀ u ∈ us, (∀ g ∈ u.pomACCs ++ u.pomCONs, g.verify c = .ok → φ g) ∧ ∀ g ∈ u.sths, g.verify c = .ok → ψ g) :
    DBInv X φ ψ (runUpdates X c true us s).2 := by
  induction us generalizing s with
  | nil => exact hs
  | cons u t ih =>
    refine ih _ ?_ fun u' h' => hu u' (List.mem_cons_of_mem _ h')
    obtain ⟨h1, h2⟩ := hu u List.mem_cons_self
    obtain ⟨rd, rr, td, tr, pd, pr, _, e2, e3, _, h5, h6, _, h8, h9⟩ := (handleUpdate_effect X c true u s).part
    constructor
    · rw [h9]
      refine foldl_pom φ pd s.pomDB hs.pom fun g hg => h1 g ?_ (h6 g hg rfl)
      rw [e3]; exact List.mem_append_left _ hg
    · rw [h8]
      refine foldl_sth X ψ td s.sthDB hs.sth fun g hg => ⟨h2 g ?_ ((h5 g hg).1 rfl), (h5 g hg).2⟩
      rw [e2]; exact List.mem_append_left _ hg

theorem db_init (φ ψ : GossipObj → Prop) : DBInv X φ ψ initClient :=
  { pom := fun _ _ h => (by cases h), sth := fun _ _ h => (by cases h) }

/-- C82, if the monitors file only accusation and conflict proofs under the proofs: then everyone in the client's proof
database is named by such a proof that verified. Missing: the client does not look at the type. -/
theorem C82_honest_monitors_partial (us : List ClientUpdate)
    (hu : ∀ u ∈ us, ∀ g ∈ u.pomACCs ++ u.pomCONs, g.type = .ACC_FULL ∨ g.type = .CON_INIT) (k : Str) (g : GossipObj)
    (h : (runUpdates X c true us initClient).2.pomDB.get k = some g) :
    k = g.payload.p0 ∧ (g.type = .ACC_FULL ∨ g.type = .CON_INIT) ∧ g.verify c = .ok := by
  obtain ⟨h1, h2⟩ := (db_run X c (fun g => (g.type = .ACC_FULL ∨ g.type = .CON_INIT) ∧ g.verify c = .ok) (fun _ => True) us
    initClient (db_init X _ _) fun u h => ⟨fun g hg hv => ⟨hu u h g hg, hv⟩, fun _ _ _ => trivial⟩).pom k g h
  exact ⟨h1, h2⟩

/-- C83 is false: every tree head that verifies as any type of object, in particular one signed by its logger alone and
never seen by a gossiper, is recorded as the root for its period, over the one recorded before. -/
theorem C83_violated_unendorsed (s : ClientState) (hf : Free s) (g : GossipObj) (hv : g.verify c = .ok) (d : STHData)
    (hd : treeInfo X g = some d) :
    ∃ s', handleUpdate X c true { emptyUpdate with sths := [g] } s = (.accepted, s') ∧
      s'.sthDB.get (g.payload.p0 ++ go!"@" ++ g.period) = some d.rootHash := by
  refine ⟨_, (C50_accepted_iff X c true _ s _).2 ⟨hf, ⟨revsPass_nil X c _ _, ?_, ?_⟩, rfl⟩, ?_⟩
  · intro x hx
    rw [List.mem_singleton.1 (show x ∈ [g] from hx)]
    exact ⟨fun _ => hv, by rw [hd]; rfl⟩
  · intro x hx; cases hx
  · show (recordSTH X s.sthDB g).get (g.payload.p0 ++ go!"@" ++ g.period) = some d.rootHash
    unfold recordSTH
    rw [GoMap.get_set_self, hd]
    rfl

/-- C83, if the monitors file only FULL objects under the tree heads: then every recorded root comes from an object whose
aggregate signature verified. (What that says about the number of signers: C07.) Missing: the client does not look at the
type. -/
theorem C83_honest_monitors_partial (us : List ClientUpdate) (hu : ∀ u ∈ us, ∀ g ∈ u.sths, g.type = .STH_FULL) (k r : Str)
    (h : (runUpdates X c true us initClient).2.sthDB.get k = some r) :
    ∃ g d, k = g.payload.p0 ++ go!"@" ++ g.period ∧ treeInfo X g = some d ∧ r = d.rootHash ∧ g.type = .STH_FULL ∧ FullValid c g := by
  obtain ⟨g, d, h1, h2, h3, h4, h5⟩ := (db_run X c (fun _ => True) (fun g => g.type = .STH_FULL ∧ g.verify c = .ok) us
    initClient (db_init X _ _) fun u h => ⟨fun _ _ _ => trivial, fun g hg hv => ⟨hu u h g hg, hv⟩⟩).sth k r h
  exact ⟨g, d, h1, h2, h3, h4, (full_verify_iff c g (by rw [h4]; rfl)).1 h5⟩

/-! ### C84: accepted certificates were logged -/

/-- C84 is false: whoever owns an accepted certificate can put any key, any serial number and any signature into it, as
long as subject, issuer name and extension stay: nothing else is looked at. -/
theorem C84_violated_other_key (s : ClientState) (cert cert' : Cert) (h : verifyCTngExt X c s cert = .accept)
    (h1 : cert'.rawSubject = cert.rawSubject) (h2 : cert'.issuerCN = cert.issuerCN) (h3 : cert'.extensions = cert.extensions) :
    verifyCTngExt X c s cert' = .accept := by
  have hx : cert'.parseExt X = cert.parseExt X := by unfold Cert.parseExt; rw [h3]
  have hr : cert'.rid X = cert.rid X := by unfold Cert.rid; rw [hx]
  have he : ∀ e, entryFaulty X c s cert' e = entryFaulty X c s cert e := by
    intro e
    have hb : cert'.parseTBS.block = cert.parseTBS.block := h1
    unfold entryFaulty verifyPOI
    rw [hb]
  have hc : ∀ l, countFaulty X c s cert' l = countFaulty X c s cert l := by
    intro l
    induction l with
    | nil => rfl
    | cons e t ih => simp only [countFaulty, he, ih]
  rw [verifyExt_eq] at h ⊢
  rw [hx, hc, h2, hr]
  exact h

/-- C84, what holds: if the recorded root is the one of a tree over `blocks` and the proof has the length proofs of that
tree have, the subject of the accepted certificate is in the tree (or the hash collides on the bytes hashed). Missing:
anything but the subject, and a check of the proof's length (C62). -/
theorem C84_subject_was_logged_partial (n : Nat) (hlen : ∀ x, (L.sha256 x).length = n) (s : ClientState) (cert : Cert) (e : LoggerInfo)
    (hg : GoodEntry X c s cert e) (blocks : List Str) (t : MTree) (ht : merkleNew L.sha256 blocks = some t)
    (hs : s.sthDB.get (e.sth.payload.p0 ++ go!"@" ++ e.sth.period) = some (hexEncode t.root)) (p : MProof) (hp : e.poi.poi = some p)
    (hd : p.siblings.length = merkleDepth blocks.length) :
    cert.rawSubject ∈ blocks ∨ CollisionIn L.sha256 (verifyInputs L.sha256 cert.rawSubject p) (treeInputs L.sha256 blocks) := by
  obtain ⟨_, _, d, _, h4, h5⟩ := hg
  rw [hs, Option.getD_some] at h4
  have hhex : hexPrefix d.rootHash = t.root := by rw [← h4]; exact hexPrefix_encode _
  rw [hhex, hp] at h5
  exact C62_proofs_sound L.sha256 n hlen blocks t ht cert.rawSubject p hd h5

theorem foldProof_length (n : Nat) (sha : Str → Str) (hlen : ∀ x, (sha x).length = n) :
    ∀ (ss : List Str) (x : Str) (p : Nat), x.length = n → (foldProof sha x ss p).length = n
  | [], _, _, h => h
  | s :: t, x, p, _ => by
    unfold foldProof
    split <;> exact foldProof_length n sha hlen t _ _ (hlen _)

/-- An entry counts only if the client has a root for it. -/
theorem GoodEntry.recorded {n : Nat} (hn : 0 < n) (hlen : ∀ x, (L.sha256 x).length = n) {s : ClientState} {cert : Cert}
    {e : LoggerInfo} (hg : GoodEntry X c s cert e) :
    ∃ r p, s.sthDB.get (e.sth.payload.p0 ++ go!"@" ++ e.sth.period) = some r ∧ e.poi.poi = some p := by
  obtain ⟨_, _, d, _, h4, h5⟩ := hg
  cases hp : e.poi.poi with
  | none => rw [hp] at h5; simp [verifyPOI, merkleVerify] at h5
  | some p =>
    cases hr : s.sthDB.get (e.sth.payload.p0 ++ go!"@" ++ e.sth.period) with
    | some r => exact ⟨r, p, rfl, rfl⟩
    | none =>
      rw [hr, Option.getD_none] at h4
      rw [hp, ← h4] at h5
      have h6 : foldProof L.sha256 (L.sha256 cert.parseTBS.block) p.siblings p.path = hexPrefix [] := by
        simpa [verifyPOI, merkleVerify] using h5
      have h7 := foldProof_length n L.sha256 hlen p.siblings (L.sha256 cert.parseTBS.block) p.path (hlen _)
      rw [h6, show hexPrefix [] = [] from rfl] at h7
      simp at h7; omega

/-- C84, from the decision: if a client accepts a certificate, and among its entries those whose tree head the client has a
root for name a tree with that root and carry proofs of that tree's depth, then the subject of the certificate is a leaf of
one of these trees, or a hash collision is exhibited. (Entries the client has no root for may be anything.) Missing: the rest of
the certificate, and the depth of the proof is not checked. -/
theorem C84_accepted_subject_logged_partial (n : Nat) (hn : 0 < n) (hlen : ∀ x, (L.sha256 x).length = n) (s : ClientState)
    (cert : Cert) (h : verifyCTngExt X c s cert = .accept) (blocks : LoggerInfo → List Str)
    (ht : ∀ e ∈ (cert.parseExt X).loggers, ∀ r, s.sthDB.get (e.sth.payload.p0 ++ go!"@" ++ e.sth.period) = some r →
      (∃ t, merkleNew L.sha256 (blocks e) = some t ∧ r = hexEncode t.root) ∧
      ∀ p, e.poi.poi = some p → p.siblings.length = merkleDepth (blocks e).length) :
    ∃ e ∈ (cert.parseExt X).loggers, e.sth.verify c = .ok ∧ s.pomDB.get e.sth.signer = none ∧
      (s.sthDB.get (e.sth.payload.p0 ++ go!"@" ++ e.sth.period)).isSome ∧ ∃ p, e.poi.poi = some p ∧
      (cert.rawSubject ∈ blocks e ∨
        CollisionIn L.sha256 (verifyInputs L.sha256 cert.rawSubject p) (treeInputs L.sha256 (blocks e))) := by
  obtain ⟨⟨e, he, hg⟩, _⟩ := C51_accepted_partial X c s cert h
  obtain ⟨r, p, hr, hp⟩ := hg.recorded X c hn hlen
  obtain ⟨⟨t, h1, rfl⟩, h4⟩ := ht e he r hr
  exact ⟨e, he, hg.verifies, hg.free, by rw [hr]; rfl, p, hp,
    C84_subject_was_logged_partial X c n hlen s cert e hg _ _ h1 hr _ hp (h4 p hp)⟩

end CTng
