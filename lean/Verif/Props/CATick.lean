import Verif.Model.CATick
import Verif.Props.CAConc
/- Rounds of a CA that overlap: C134 (ids and subjects), C135 (certificates stay in the pool). -/
set_option autoImplicit false

namespace CTng
variable {L : Lib} {X : XLib} (c : CAConf L) (root : Cert)

/-! ### Runs -/

theorem caTickRun_append (m : CATicks) (h h' : List CATickEvent) :
    caTickRun X c root m (h ++ h') = caTickRun X c root (caTickRun X c root m h) h' := List.foldl_append

theorem caTickRun_cons (m : CATicks) (e : CATickEvent) (h : List CATickEvent) :
    caTickRun X c root m (e :: h) = caTickRun X c root (caTickStep X c root m e) h := rfl

theorem caTickStep_dead {m : CATicks} (hd : m.dead = true) (e : CATickEvent) : caTickStep X c root m e = m := by
  unfold caTickStep; rw [if_pos hd]

/-- A step of a round. -/
theorem caTickStep_run {m : CATicks} (hd : m.dead = false) {k : Nat} {g : TickAt} (hk : m.gs[k]? = some g) {pub : Nat → Str}
    {t : Instant} {pos : List Nat} {s' : CAState} {new : List Cert} {g' : TickAt}
    (h : tickStep X c root pub t pos m.s g = some (s', new, g')) :
    caTickStep X c root m (.run k pub t pos) = ⟨s', m.gs.set k g', m.made ++ new, false⟩ := by
  unfold caTickStep
  rw [if_neg (by rw [hd]; decide)]
  simp only [hk, h, hd]

theorem tick_set_get {g : TickAt} {l : List TickAt} {k : Nat} {g0 : TickAt} (hk : l[k]? = some g0) : (l.set k g)[k]? = some g := by
  rw [List.getElem?_set_self (List.getElem?_eq_some_iff.1 hk).1]

theorem addAll_cons_one {p : CertPool} (hp : Rep p) (x : Cert) (l : List Cert) : addAll p (x :: l) = addAll (addAll p [x]) l := by
  obtain ⟨e, he⟩ := hp
  obtain ⟨p', h1, _⟩ := poolOp_spec he (.add x)
  simp only [poolOp] at h1
  simp only [addAll, h1]

theorem addAll_one {p : CertPool} (hp : Rep p) (x : Cert) : p.addCert x = .ok (addAll p [x]) ∧ Rep (addAll p [x]) := by
  obtain ⟨e, he⟩ := hp
  obtain ⟨p', h1, h2⟩ := poolOp_spec he (.add x)
  simp only [poolOp] at h1
  simp only [addAll, h1]
  exact ⟨trivial, _, h2⟩

/-! ### A round that runs alone -/

section Alone
variable (pub : Nat → Str) (t : Instant) (pos : List Nat)

/-- `n` steps of goroutine `k`. -/
def alone (k n : Nat) : List CATickEvent := List.replicate n (.run k pub t pos)

theorem alone_succ (m : CATicks) (k n : Nat) : caTickRun X c root m (alone pub t pos k (n + 1)) =
    caTickRun X c root (caTickStep X c root m (.run k pub t pos)) (alone pub t pos k n) := by
  rw [alone, List.replicate_succ, caTickRun_cons]; rfl

theorem alone_add (m : CATicks) (k a b : Nat) : caTickRun X c root m (alone pub t pos k (a + b)) =
    caTickRun X c root (caTickRun X c root m (alone pub t pos k a)) (alone pub t pos k b) := by
  rw [alone, ← List.replicate_append_replicate, caTickRun_append]; rfl

/-- The loop that makes the certificates. -/
theorem alone_make (pub0 : Nat → Str) (off : Nat) : ∀ (n : Nat) (m : CATicks) (k : Nat) (certs : List Cert), m.dead = false →
    m.gs[k]? = some (.rid pub0 off certs) → certs.length + (n + 1) = c.certPerPeriod →
    caTickRun X c root m (alone pub t pos k (2 * (n + 1))) =
      ⟨{ m.s with certCounter := m.s.certCounter + (n + 1) },
       m.gs.set k (.add (certs ++ (issueLoop X L.sha256 root c.signer pub0 off (n + 1) certs.length m.s.certCounter).1) 0),
       m.made ++ (issueLoop X L.sha256 root c.signer pub0 off (n + 1) certs.length m.s.certCounter).1, false⟩ := by
  intro n
  induction n with
  | zero =>
    intro m k certs hd hk hl
    rw [show 2 * (0 + 1) = 0 + 1 + 1 from rfl, alone_succ, alone_succ, caTickStep_run c root hd hk (s' := m.s) (new := [])
      (g' := .bump pub0 off m.s.certCounter certs) rfl, caTickStep_run c root rfl (tick_set_get hk) rfl]
    simp only [alone, List.replicate_zero, caTickRun, List.foldl_nil, List.append_nil, List.set_set, issueLoop, nextMade]
    rw [if_neg (by simp; omega)]
  | succ n ih =>
    intro m k certs hd hk hl
    rw [show 2 * (n + 1 + 1) = 2 * (n + 1) + 1 + 1 by omega, alone_succ, alone_succ,
      caTickStep_run c root hd hk (s' := m.s) (new := []) (g' := .bump pub0 off m.s.certCounter certs) rfl,
      caTickStep_run c root rfl (tick_set_get hk) rfl]
    have hlt : (certs ++ [signCertificate X L.sha256 (genratePreCert X m.s.certCounter c.signer
        (dummySubject certs.length off) false).1 root (pub0 certs.length)]).length + (n + 1) = c.certPerPeriod := by
      simp; omega
    rw [ih _ k _ rfl (by
      simp only [nextMade]
      rw [if_pos (by omega)]
      exact tick_set_get (tick_set_get hk)) hlt]
    simp only [List.append_nil, List.set_set, List.append_assoc, List.length_append, List.length_singleton,
      List.singleton_append]
    have : issueLoop X L.sha256 root c.signer pub0 off (n + 1 + 1) certs.length m.s.certCounter =
      (signCertificate X L.sha256 (genratePreCert X m.s.certCounter c.signer
        (dummySubject certs.length off) false).1 root (pub0 certs.length) ::
        (issueLoop X L.sha256 root c.signer pub0 off (n + 1) (certs.length + 1) (m.s.certCounter + 1)).1,
        (issueLoop X L.sha256 root c.signer pub0 off (n + 1) (certs.length + 1) (m.s.certCounter + 1)).2) := rfl
    rw [this]
    simp only
    congr 2
    omega

/-- The loop that posts the certificates. -/
theorem alone_post (certs : List Cert) : ∀ (n : Nat) (m : CATicks) (k j : Nat), m.dead = false → Rep m.s.pool →
    m.gs[k]? = some (.add certs j) → certs.length = j + (n + 1) →
    caTickRun X c root m (alone pub t pos k (2 * (n + 1))) =
      ⟨{ m.s with pool := addAll m.s.pool ((certs.drop j).map (Cert.toPrecert X)), issued := m.s.issued ++ certs.drop j },
       m.gs.set k (.armed certs), m.made, false⟩ := by
  intro n
  induction n with
  | zero =>
    intro m k j hd hp hk hl
    have hj : j < certs.length := by omega
    have hs : tickStep X c root pub t pos m.s (.add certs j) =
        some ({ m.s with pool := addAll m.s.pool [certs[j].toPrecert X] }, [], .post certs j) := by
      simp only [tickStep, List.getElem?_eq_getElem hj]
    rw [show 2 * (0 + 1) = 0 + 1 + 1 from rfl, alone_succ, alone_succ, caTickStep_run c root hd hk hs,
      caTickStep_run c root rfl (tick_set_get hk) rfl]
    rw [List.drop_eq_getElem_cons hj, List.drop_eq_nil_of_le (by omega : certs.length ≤ j + 1)]
    simp only [alone, List.replicate_zero, caTickRun, List.foldl_nil, List.append_nil, List.set_set, nextAdd,
      List.getElem?_eq_getElem hj, Option.toList_some, List.map_cons, List.map_nil]
    rw [if_neg (by omega)]
  | succ n ih =>
    intro m k j hd hp hk hl
    have hj : j < certs.length := by omega
    have hs : tickStep X c root pub t pos m.s (.add certs j) =
        some ({ m.s with pool := addAll m.s.pool [certs[j].toPrecert X] }, [], .post certs j) := by
      simp only [tickStep, List.getElem?_eq_getElem hj]
    rw [show 2 * (n + 1 + 1) = 2 * (n + 1) + 1 + 1 by omega, alone_succ, alone_succ, caTickStep_run c root hd hk hs,
      caTickStep_run c root rfl (tick_set_get hk) rfl]
    rw [ih _ k (j + 1) rfl (addAll_one hp _).2 (by
      simp only [nextAdd]
      rw [if_pos (by omega)]
      exact tick_set_get (tick_set_get hk)) (by omega)]
    rw [List.drop_eq_getElem_cons hj, List.map_cons,
      addAll_cons_one hp (certs[j].toPrecert X) ((certs.drop (j + 1)).map (Cert.toPrecert X))]
    simp only [List.append_nil, List.set_set, List.getElem?_eq_getElem hj, Option.toList_some, List.append_assoc,
      List.singleton_append]

/-- C134, a part: a round whose steps are not interleaved with those of another round is the round of the sequential model
(`startRound`), of which C54 is proved; and the end of a round likewise is `endRound`. -/
theorem C134_alone_partial (m : CATicks) (k : Nat) (hd : m.dead = false) (hp : Rep m.s.pool) :
    (m.gs[k]? = some .begun →
      ∃ certs, caTickRun X c root m (alone pub t pos k (4 * c.certPerPeriod + 2)) =
        ⟨startRound X c root pub m.s, m.gs.set k (.armed certs), m.made ++ certs, false⟩ ∧
        (startRound X c root pub m.s).issued = m.s.issued ++ certs) ∧
    ∀ certs s', m.gs[k]? = some (.armed certs) → endRound X c t pos m.s = some s' →
      caTickRun X c root m (alone pub t pos k 2) = ⟨s', m.gs.set k (.done certs), m.made, false⟩ := by
  constructor
  · intro hk
    rw [Nat.add_comm, alone_add, show (2 : Nat) = 0 + 1 + 1 from rfl, alone_succ, alone_succ,
      caTickStep_run c root hd hk rfl]
    cases hN : c.certPerPeriod with
    | zero =>
      have hs : tickStep X c root pub t pos { m.s with sthStorage := .empty } .wiped =
          some ({ m.s with sthStorage := .empty }, [], .armed []) := by simp only [tickStep, hN]; rfl
      rw [caTickStep_run c root rfl (tick_set_get hk) hs]
      refine ⟨[], ?_, ?_⟩
      · simp only [alone, List.replicate_zero, caTickRun, List.foldl_nil, List.append_nil, List.set_set, Nat.mul_zero,
          startRound, hN, issueLoop, List.map_nil, addAll]
      · simp only [startRound, hN, issueLoop]
    | succ n =>
      have hs : tickStep X c root pub t pos { m.s with sthStorage := .empty } .wiped =
          some ({ m.s with sthStorage := .empty }, [], .rid pub m.s.certCounter []) := by
        simp only [tickStep, hN]; rfl
      rw [caTickStep_run c root rfl (tick_set_get hk) hs]
      generalize hm2 : CATicks.mk _ _ _ _ = m2
      have e0 : caTickRun X c root m2 (alone pub t pos k 0) = m2 := rfl
      rw [e0, show 4 * (n + 1) = 2 * (n + 1) + 2 * (n + 1) by omega, alone_add,
        alone_make c root pub t pos pub m.s.certCounter n m2 k [] (by rw [← hm2]) (by rw [← hm2]; exact tick_set_get (tick_set_get hk))
          (by rw [hN]; simp)]
      simp only [List.nil_append, List.length_nil]
      rw [alone_post c root pub t pos _ n _ k 0 rfl (by rw [← hm2]; exact hp)
        (by rw [← hm2]; exact tick_set_get (tick_set_get (tick_set_get hk))) (by rw [issueLoop_length]; omega)]
      refine ⟨(issueLoop X L.sha256 root c.signer pub m.s.certCounter (n + 1) 0 m.s.certCounter).1, ?_, ?_⟩
      · simp only [List.set_set, List.drop_zero, ← hm2, List.append_nil, startRound, hN, issueLoop_counter]
      · simp only [startRound, hN, ← hm2]
  · intro certs s' hk he
    have hs : tickStep X c root pub t pos m.s (.armed certs) = some ({ s' with pool := m.s.pool }, [], .reset certs) := by
      simp only [tickStep, he, Option.map_some]
    rw [show (2 : Nat) = 0 + 1 + 1 from rfl, alone_succ, alone_succ, caTickStep_run c root hd hk hs,
      caTickStep_run c root rfl (tick_set_get hk) rfl]
    obtain ⟨_, _, _, _, rfl⟩ := endRound_some X c he
    simp only [alone, List.replicate_zero, caTickRun, List.foldl_nil, List.append_nil, List.set_set]

end Alone

/-! ### Rounds that make certificates one after the other -/

/-- The round is between the reading of the offset and the last certificate. -/
def TickAt.generating : TickAt → Prop
  | .rid .. => True
  | .bump .. => True
  | _ => False

/-- Certificate number `n` of this CA. -/
def NumberedCert (X : XLib) (n : Nat) (x : Cert) : Prop :=
  ∃ key, x = signCertificate X L.sha256 (genratePreCert X n c.signer (dummySubject 0 n) false).1 root key

/-- No two rounds make certificates at the same time. -/
def OneGenerates (m : CATicks) : Prop :=
  ∀ (i j : Nat) g g', m.gs[i]? = some g → m.gs[j]? = some g' → g.generating → g'.generating → i = j

/-- In no moment of the schedule two rounds make certificates at the same time. -/
def NeverTwoGenerate (X : XLib) (m : CATicks) (h : List CATickEvent) : Prop :=
  ∀ h1 h2, h = h1 ++ h2 → OneGenerates (caTickRun X c root m h1)

/-- The offset and the number read fit the counter. -/
def GenOk (n : Nat) : TickAt → Prop
  | .rid _ off certs => off + certs.length = n
  | .bump _ off rid certs => rid = n ∧ off + certs.length = n
  | _ => True

/-- All certificates made so far are numbered in order. -/
structure MadeInv (X : XLib) (m : CATicks) : Prop where
  counter : m.s.certCounter = m.made.length + 1
  numbered : ∀ (j : Nat) x, m.made[j]? = some x → NumberedCert c root X (j + 1) x
  gen : ∀ (k : Nat) g, m.gs[k]? = some g → GenOk m.s.certCounter g

theorem endRound_counter {t : Instant} {pos : List Nat} {s s' : CAState} (h : endRound X c t pos s = some s') :
    s'.certCounter = s.certCounter ∧ s'.issued = s.issued := by
  obtain ⟨_, _, _, _, rfl⟩ := endRound_some X c h
  exact ⟨rfl, rfl⟩

theorem genOk_quiet {n : Nat} {g : TickAt} (h : ¬ g.generating) : GenOk n g := by
  cases g <;> first | trivial | exact absurd trivial h

/-- What a step of a round does to the counter and the certificates. -/
theorem tickStep_made {pub : Nat → Str} {t : Instant} {pos : List Nat} {s s' : CAState} {g g' : TickAt} {new : List Cert}
    (h : tickStep X c root pub t pos s g = some (s', new, g')) (hg : GenOk s.certCounter g) :
    (s'.certCounter = s.certCounter ∧ new = [] ∧ GenOk s.certCounter g') ∨
    (g.generating ∧ s'.certCounter = s.certCounter + 1 ∧ GenOk (s.certCounter + 1) g' ∧
      ∃ x, new = [x] ∧ NumberedCert c root X s.certCounter x) := by
  cases g with
  | begun => cases h; exact Or.inl ⟨rfl, rfl, trivial⟩
  | wiped =>
    simp only [tickStep] at h
    split at h <;> cases h
    · exact Or.inl ⟨rfl, rfl, rfl⟩
    · exact Or.inl ⟨rfl, rfl, trivial⟩
  | rid pub0 off certs => cases h; exact Or.inl ⟨rfl, rfl, rfl, hg⟩
  | bump pub0 off rid certs =>
    obtain ⟨rfl, ho⟩ := hg
    simp only [tickStep, Option.some.injEq, Prod.mk.injEq] at h
    obtain ⟨rfl, rfl, rfl⟩ := h
    refine Or.inr ⟨trivial, rfl, ?_, _, rfl, pub0 certs.length, ?_⟩
    · simp only [nextMade]
      split
      · simp only [GenOk, List.length_append, List.length_singleton]; omega
      · trivial
    · have : dummySubject certs.length off = dummySubject 0 s.certCounter := by
        unfold dummySubject; rw [show certs.length + off = 0 + s.certCounter by omega]
      rw [this]
  | add certs k =>
    simp only [tickStep] at h
    split at h <;> cases h <;> exact Or.inl ⟨rfl, rfl, trivial⟩
  | post certs k =>
    simp only [tickStep, Option.some.injEq, Prod.mk.injEq] at h
    obtain ⟨rfl, rfl, rfl⟩ := h
    refine Or.inl ⟨rfl, rfl, ?_⟩
    unfold nextAdd
    split <;> trivial
  | armed certs =>
    simp only [tickStep, Option.map_eq_some_iff, Prod.mk.injEq] at h
    obtain ⟨s1, h1, rfl, rfl, rfl⟩ := h
    exact Or.inl ⟨(endRound_counter c h1).1, rfl, trivial⟩
  | reset certs => cases h; exact Or.inl ⟨rfl, rfl, trivial⟩
  | done certs => cases h; exact Or.inl ⟨rfl, rfl, trivial⟩

theorem madeInv_step {m : CATicks} (h : MadeInv c root X m) (hc : OneGenerates m) (e : CATickEvent) :
    MadeInv c root X (caTickStep X c root m e) := by
  cases hd : m.dead with
  | true => rw [caTickStep_dead c root hd]; exact h
  | false =>
    obtain ⟨h1, h2, h3⟩ := h
    unfold caTickStep
    rw [if_neg (by rw [hd]; decide)]
    cases e with
    | tick =>
      refine ⟨h1, h2, ?_⟩
      intro k g hk
      rcases List.mem_append.1 (List.mem_of_getElem? hk) with hm | hm
      · obtain ⟨j, hj⟩ := List.getElem?_of_mem hm
        exact h3 j g hj
      · simp only [List.mem_singleton] at hm; subst hm; trivial
    | run k pub t pos =>
      simp only
      cases hk : m.gs[k]? with
      | none => exact ⟨h1, h2, h3⟩
      | some g =>
        simp only
        cases ht : tickStep X c root pub t pos m.s g with
        | none => exact ⟨h1, h2, h3⟩
        | some r =>
          obtain ⟨s', new, g'⟩ := r
          simp only
          rcases tickStep_made c root ht (h3 k g hk) with ⟨e1, rfl, hg'⟩ | ⟨hgen, e1, hg', x, rfl, hx⟩
          · refine ⟨by rw [e1, List.append_nil]; exact h1, by rw [List.append_nil]; exact h2, ?_⟩
            intro j g1 hj
            simp only at hj ⊢
            rw [e1]
            by_cases hjk : j = k
            · subst hjk
              rw [tick_set_get hk] at hj
              cases hj
              exact hg'
            · rw [List.getElem?_set_ne (Ne.symm hjk)] at hj
              exact h3 j g1 hj
          · refine ⟨?_, ?_, ?_⟩
            · simp only [e1, List.length_append, List.length_singleton]; omega
            · intro j y hj
              simp only at hj
              by_cases hlt : j < m.made.length
              · rw [List.getElem?_append_left hlt] at hj
                exact h2 j y hj
              · rw [List.getElem?_append_right (by omega)] at hj
                have : j - m.made.length = 0 := by
                  have := (List.getElem?_eq_some_iff.1 hj).1
                  simpa using this
                rw [this] at hj
                simp only [List.getElem?_cons_zero, Option.some.injEq] at hj
                subst hj
                have : j + 1 = m.s.certCounter := by omega
                rw [this]
                exact hx
            · intro j g1 hj
              simp only at hj ⊢
              rw [e1]
              by_cases hjk : j = k
              · subst hjk
                rw [tick_set_get hk] at hj
                cases hj
                exact hg'
              · rw [List.getElem?_set_ne (Ne.symm hjk)] at hj
                exact genOk_quiet fun hq => hjk (hc j k g1 g hj hk hq hgen)
    | sth g =>
      obtain ⟨n, hn⟩ := sth_frame c g m.s
      simp only [hn]; exact ⟨h1, h2, h3⟩
    | poi p =>
      obtain ⟨n, hn⟩ := poi_frame X p m.s
      simp only [hn]; exact ⟨h1, h2, h3⟩
    | request t =>
      obtain ⟨n, hn⟩ := request_frame c t m.s
      simp only [hn]; exact ⟨h1, h2, h3⟩
    | revoke i => exact ⟨h1, h2, h3⟩

theorem madeInv_run (h : List CATickEvent) {m : CATicks} (hm : MadeInv c root X m) (hn : NeverTwoGenerate c root X m h) :
    MadeInv c root X (caTickRun X c root m h) := by
  induction h generalizing m with
  | nil => exact hm
  | cons e r ih =>
    rw [caTickRun_cons]
    refine ih (madeInv_step c root hm (hn [] (e :: r) rfl) e) ?_
    intro h1 h2 he
    exact hn (e :: h1) h2 (by rw [he]; rfl)

theorem numbered_rid (hX : X.Laws) {n : Nat} {x : Cert} (h : NumberedCert c root X n x) (hn : n < 2 ^ 63) : x.rid X = n := by
  obtain ⟨key, rfl⟩ := h
  exact signed_rid hX _ _ _ _ _ _ _ hn

theorem numbered_subject (hX : X.Laws) {n : Nat} {x : Cert} (h : NumberedCert c root X n x) :
    x.subjectCN = go!"Testing Dummy " ++ itoa n := by
  obtain ⟨key, rfl⟩ := h
  simp only [signCertificate, hX.createSubject, genratePreCert, dummySubject, Nat.zero_add]
  rfl

/-- C134, a part: as long as no two rounds make certificates at the same time, the `j`-th certificate the CA makes has the
id `j` and the subject "Testing Dummy j", whatever else is interleaved: steps of other rounds that post certificates or end,
tree heads, proofs, requests, revocations, new ticks. So neither ids nor subjects are ever used twice. -/
theorem C134_ids_and_subjects_partial (hX : X.Laws) (sha : Str → Str) (signer key : Str) (h : List CATickEvent)
    (hn : NeverTwoGenerate c root X (.init (initCA X sha signer key).2) h)
    (m : CATicks) (hm : m = caTickRun X c root (.init (initCA X sha signer key).2) h) (hlt : m.made.length + 1 < 2 ^ 63) :
    (∀ (j : Nat) x, m.made[j]? = some x → x.rid X = j + 1 ∧ x.subjectCN = go!"Testing Dummy " ++ itoa (j + 1)) ∧
    ∀ (i j : Nat) x y, m.made[i]? = some x → m.made[j]? = some y → x.rid X = y.rid X ∨ x.subjectCN = y.subjectCN → i = j := by
  have hi : MadeInv c root X m := by
    rw [hm]
    exact madeInv_run c root h ⟨rfl, fun j x hj => by simp [CATicks.init] at hj,
      fun k g hk => by simp [CATicks.init] at hk⟩ hn
  have key : ∀ (j : Nat) x, m.made[j]? = some x → x.rid X = j + 1 ∧ x.subjectCN = go!"Testing Dummy " ++ itoa (j + 1) := by
    intro j x hj
    have := (List.getElem?_eq_some_iff.1 hj).1
    exact ⟨numbered_rid c root hX (hi.numbered j x hj) (by omega), numbered_subject c root hX (hi.numbered j x hj)⟩
  refine ⟨key, ?_⟩
  intro i j x y hx hy he
  obtain ⟨a1, a2⟩ := key i x hx
  obtain ⟨b1, b2⟩ := key j y hy
  rcases he with he | he
  · omega
  · rw [a2, b2] at he
    have := itoa_inj (List.append_cancel_left he)
    omega

/-! ### Rounds that make certificates at the same time -/

/-- C134, violated: two rounds that are both about to read the counter (CA/ca.go:20) read the same number when the second
reads before the first has stepped it (CA/ca.go:65): two certificates with the same revocation id, and one id that no
certificate has. -/
theorem C134_violated_same_id (hX : X.Laws) (m : CATicks) (hd : m.dead = false) (i j : Nat) (hij : i ≠ j)
    (pub pub' : Nat → Str) (off off' : Nat) (certs certs' : List Cert) (hi : m.gs[i]? = some (.rid pub off certs))
    (hj : m.gs[j]? = some (.rid pub' off' certs')) (hlt : m.s.certCounter < 2 ^ 63) (p : Nat → Str) (t : Instant)
    (pos : List Nat) :
    ∃ m' x y, caTickRun X c root m [.run i p t pos, .run j p t pos, .run i p t pos, .run j p t pos] = m' ∧
      m'.dead = false ∧ m'.made = m.made ++ [x, y] ∧ x.rid X = m.s.certCounter ∧ y.rid X = m.s.certCounter ∧
      m'.s.certCounter = m.s.certCounter + 2 := by
  have hj1 : (m.gs.set i (.bump pub off m.s.certCounter certs))[j]? = some (.rid pub' off' certs') := by
    rw [List.getElem?_set_ne hij]; exact hj
  have hi2 : ((m.gs.set i (.bump pub off m.s.certCounter certs)).set j (.bump pub' off' m.s.certCounter certs'))[i]? =
      some (.bump pub off m.s.certCounter certs) := by
    rw [List.getElem?_set_ne (Ne.symm hij)]; exact tick_set_get hi
  have hj3 : ∀ g, (((m.gs.set i (.bump pub off m.s.certCounter certs)).set j (.bump pub' off' m.s.certCounter certs')).set i
      g)[j]? = some (.bump pub' off' m.s.certCounter certs') := by
    intro g; rw [List.getElem?_set_ne hij]; exact tick_set_get hj1
  rw [caTickRun_cons, caTickStep_run c root hd hi (s' := m.s) (new := []) (g' := .bump pub off m.s.certCounter certs) rfl,
    caTickRun_cons, caTickStep_run c root (m := ⟨m.s, m.gs.set i (.bump pub off m.s.certCounter certs), m.made ++ [], false⟩)
      rfl hj1 (s' := m.s) (new := []) (g' := .bump pub' off' m.s.certCounter certs') rfl,
    caTickRun_cons, caTickStep_run c root (m := ⟨m.s, _, _, false⟩) rfl hi2 rfl,
    caTickRun_cons, caTickStep_run c root (m := ⟨_, _, _, false⟩) rfl (hj3 _) rfl]
  refine ⟨_, signCertificate X L.sha256 (genratePreCert X m.s.certCounter c.signer (dummySubject certs.length off) false).1 root
      (pub certs.length), signCertificate X L.sha256 (genratePreCert X m.s.certCounter c.signer
      (dummySubject certs'.length off') false).1 root (pub' certs'.length), rfl, rfl, ?_, signed_rid hX _ _ _ _ _ _ _ hlt,
    signed_rid hX _ _ _ _ _ _ _ hlt, rfl⟩
  simp only [caTickRun, List.foldl_nil, List.append_nil, List.append_assoc, List.singleton_append]

/-- C134, violated: two rounds that are both about to read the offset of their subjects (CA/server.go:353), which is read
before the keys are made, give their certificates the same subjects, even if the certificates themselves are made one after
the other. -/
theorem C134_violated_same_subject (hX : X.Laws) (m : CATicks) (hd : m.dead = false) (i j : Nat) (hij : i ≠ j)
    (hi : m.gs[i]? = some .wiped) (hj : m.gs[j]? = some .wiped) (hN : 0 < c.certPerPeriod) (hlt : m.s.certCounter + 1 < 2 ^ 63)
    (p q : Nat → Str) (t : Instant) (pos : List Nat) :
    ∃ m' x y, caTickRun X c root m [.run i p t pos, .run j q t pos, .run i p t pos, .run i p t pos, .run j q t pos,
        .run j q t pos] = m' ∧ m'.dead = false ∧ m'.made = m.made ++ [x, y] ∧ x.subjectCN = y.subjectCN ∧
      x.rid X = m.s.certCounter ∧ y.rid X = m.s.certCounter + 1 := by
  have hw : ∀ (pub : Nat → Str) (s : CAState), tickStep X c root pub t pos s .wiped = some (s, [], .rid pub s.certCounter []) :=
    fun pub s => by simp only [tickStep, if_pos hN]
  have hj1 : (m.gs.set i (.rid p m.s.certCounter []))[j]? = some .wiped := by rw [List.getElem?_set_ne hij]; exact hj
  have hi2 : ((m.gs.set i (.rid p m.s.certCounter [])).set j (.rid q m.s.certCounter []))[i]? =
      some (.rid p m.s.certCounter []) := by
    rw [List.getElem?_set_ne (Ne.symm hij)]; exact tick_set_get hi
  have hj3 : ∀ g g', ((((m.gs.set i (.rid p m.s.certCounter [])).set j (.rid q m.s.certCounter [])).set i g).set i g')[j]? =
      some (.rid q m.s.certCounter []) := by
    intro g g'; rw [List.getElem?_set_ne hij, List.getElem?_set_ne hij]; exact tick_set_get hj1
  rw [caTickRun_cons, caTickStep_run c root hd hi (hw p _),
    caTickRun_cons, caTickStep_run c root (m := ⟨m.s, m.gs.set i (.rid p m.s.certCounter []), m.made ++ [], false⟩) rfl hj1
      (hw q _),
    caTickRun_cons, caTickStep_run c root (m := ⟨m.s, _, _, false⟩) rfl hi2 rfl,
    caTickRun_cons, caTickStep_run c root (m := ⟨m.s, _, _, false⟩) rfl (tick_set_get hi2) rfl,
    caTickRun_cons, caTickStep_run c root (m := ⟨_, _, _, false⟩) rfl (hj3 _ _) rfl,
    caTickRun_cons, caTickStep_run c root (m := ⟨_, _, _, false⟩) rfl (tick_set_get (hj3 _ _)) rfl]
  refine ⟨_, signCertificate X L.sha256 (genratePreCert X m.s.certCounter c.signer (dummySubject 0 m.s.certCounter) false).1 root
      (p 0), signCertificate X L.sha256 (genratePreCert X (m.s.certCounter + 1) c.signer
      (dummySubject 0 m.s.certCounter) false).1 root (q 0), rfl, rfl, ?_, ?_, signed_rid hX _ _ _ _ _ _ _ (by omega),
    signed_rid hX _ _ _ _ _ _ _ hlt⟩
  · simp only [caTickRun, List.foldl_nil, List.append_nil, List.append_assoc, List.singleton_append, List.length_nil]
  · simp only [signCertificate, hX.createSubject, genratePreCert]
    rfl

/-! ### The certificates a round holds -/

/-- The certificates of a round that are in the pool or posted, while the round has not ended. -/
def TickAt.held : TickAt → List Cert
  | .add certs k => certs.take k
  | .post certs k => certs.take (k + 1)
  | .armed certs => certs
  | .reset certs => certs
  | _ => []

/-- All certificates of a round so far. -/
def TickAt.all : TickAt → List Cert
  | .rid _ _ certs => certs
  | .bump _ _ _ certs => certs
  | .add certs _ => certs
  | .post certs _ => certs
  | .armed certs => certs
  | .reset certs => certs
  | .done certs => certs
  | _ => []

/-- The pool is replaced only while no other round holds certificates. -/
def EndsApart (X : XLib) (m : CATicks) (h : List CATickEvent) : Prop :=
  ∀ h1 k pub t pos h2 certs, h = h1 ++ .run k pub t pos :: h2 → (caTickRun X c root m h1).gs[k]? = some (.reset certs) →
    ∀ (j : Nat) g, j ≠ k → (caTickRun X c root m h1).gs[j]? = some g → g.held = []

/-- An entry of the pool for a certificate. -/
def EntryFor (x : Cert) (e : PEntry) : Prop := e.name = x.rawSubject ∧ e.ski = x.subjectKeyId

/-- The pool: entries of certificates made, found under their subject and key. -/
structure HeldInv (m : CATicks) (l : List PEntry) : Prop where
  rep : Represents m.s.pool l
  plain : ∀ e ∈ l, e.cert.raw = [] ∧ e.cert.rawSubject = e.name ∧ e.cert.subjectKeyId = e.ski
  made : ∀ e ∈ l, ∃ z ∈ m.made, EntryFor z e
  all : ∀ (k : Nat) g, m.gs[k]? = some g → ∀ x ∈ g.all, x ∈ m.made
  held : ∀ (k : Nat) g, m.gs[k]? = some g → ∀ x ∈ g.held, ∃ e ∈ l, EntryFor x e

/-- Two certificates of this CA with the same subject are the same certificate. -/
theorem made_subject (hX : X.Laws) {m : CATicks} (h : MadeInv c root X m) {x y : Cert} (hx : x ∈ m.made) (hy : y ∈ m.made)
    (he : x.rawSubject = y.rawSubject) : x = y := by
  obtain ⟨i, hi⟩ := List.getElem?_of_mem hx
  obtain ⟨j, hj⟩ := List.getElem?_of_mem hy
  obtain ⟨k1, e1⟩ := h.numbered i x hi
  obtain ⟨k2, e2⟩ := h.numbered j y hj
  have hs : ∀ n k, ∃ t p, signCertificate X L.sha256 (genratePreCert X n c.signer (dummySubject 0 n) false).1 root k =
      X.createCert t p k ∧ t.rawSubject = [] ∧ t.subjectCN = dummySubject 0 n := by
    intro n k
    unfold signCertificate
    refine ⟨_, _, rfl, ?_, ?_⟩ <;> split <;> rfl
  obtain ⟨t1, p1, a1, a2, a3⟩ := hs (i + 1) k1
  obtain ⟨t2, p2, b1, b2, b3⟩ := hs (j + 1) k2
  rw [e1, e2, a1, b1, hX.createRawSubject _ _ _ _ _ _ a2 b2, a3, b3] at he
  have : i = j := by
    unfold dummySubject at he
    have := itoa_inj (List.append_cancel_left he)
    omega
  subst this
  rw [hi] at hj
  exact Option.some.inj hj

/-- A proof of inclusion changes the certificate in place. -/
theorem poi_entries {m : CATicks} {l : List PEntry} (h : HeldInv m l) (p : POI) :
    ∃ l', HeldInv { m with s := caReceivePOI X p m.s } l' := by
  unfold caReceivePOI
  simp only
  rw [getBySKI_spec h.rep]
  cases hl : specLookup l p.subjectKeyId with
  | none => exact ⟨l, h⟩
  | some x =>
    simp only
    obtain ⟨p', h1, h2⟩ := poolOp_spec h.rep (.update p.subjectKeyId
      (x.updateExt X ⟨readObj m.s.sthStorage p.loggerID, p⟩))
    simp only [poolOp] at h1
    rw [h1]
    simp only
    unfold specLookup at hl
    split at hl
    · cases hl
    rename_i hk
    simp only [specOp, if_neg hk] at h2
    simp only [Option.map_eq_some_iff] at hl
    obtain ⟨e0, he0, rfl⟩ := hl
    have hx : ∀ n, (e0.cert.updateExt X n).raw = e0.cert.raw ∧ (e0.cert.updateExt X n).rawSubject = e0.cert.rawSubject ∧
        (e0.cert.updateExt X n).subjectKeyId = e0.cert.subjectKeyId := by
      intro n; unfold Cert.updateExt; simp only; split <;> exact ⟨rfl, rfl, rfl⟩
    generalize hy : e0.cert.updateExt X ⟨readObj m.s.sthStorage p.loggerID, p⟩ = y at h2
    have hy' : y.raw = e0.cert.raw ∧ y.rawSubject = e0.cert.rawSubject ∧ y.subjectKeyId = e0.cert.subjectKeyId := by
      rw [← hy]; exact hx _
    -- entries before and after
    have key : ∀ l : List PEntry, (l.find? fun e => e.ski = p.subjectKeyId) = some e0 →
        (∀ e ∈ replaceFirst p.subjectKeyId y l, e ∈ l ∨ e = { e0 with cert := y }) ∧
        (∀ e ∈ l, e ∈ replaceFirst p.subjectKeyId y l ∨ e = e0) ∧ ({ e0 with cert := y } : PEntry) ∈ replaceFirst p.subjectKeyId y l := by
      intro l
      induction l with
      | nil => intro hf; cases hf
      | cons a r ih =>
        intro hf
        by_cases ha : a.ski = p.subjectKeyId
        · rw [List.find?_cons_of_pos (by simpa using ha)] at hf
          cases hf
          simp only [replaceFirst, ha, if_true]
          refine ⟨?_, ?_, List.mem_cons_self⟩
          · intro e he
            rcases List.mem_cons.1 he with rfl | he
            · exact Or.inr rfl
            · exact Or.inl (List.mem_cons_of_mem _ he)
          · intro e he
            rcases List.mem_cons.1 he with rfl | he
            · exact Or.inr rfl
            · exact Or.inl (List.mem_cons_of_mem _ he)
        · rw [List.find?_cons_of_neg (by simpa using ha)] at hf
          obtain ⟨i1, i2, i3⟩ := ih hf
          simp only [replaceFirst, ha, if_false]
          refine ⟨?_, ?_, List.mem_cons_of_mem _ i3⟩
          · intro e he
            rcases List.mem_cons.1 he with rfl | he
            · exact Or.inl List.mem_cons_self
            · exact (i1 e he).imp_left (List.mem_cons_of_mem _)
          · intro e he
            rcases List.mem_cons.1 he with rfl | he
            · exact Or.inl List.mem_cons_self
            · exact (i2 e he).imp_left (List.mem_cons_of_mem _)
    obtain ⟨k1, k2, k3⟩ := key l he0
    have hm0 : e0 ∈ l := List.mem_of_find?_eq_some he0
    refine ⟨_, h2, ?_, ?_, h.all, ?_⟩
    · intro e he
      rcases k1 e he with he | rfl
      · exact h.plain e he
      · obtain ⟨a, b, d⟩ := h.plain e0 hm0
        exact ⟨hy'.1.trans a, hy'.2.1.trans b, hy'.2.2.trans d⟩
    · intro e he
      rcases k1 e he with he | rfl
      · exact h.made e he
      · exact h.made e0 hm0
    · intro k g hg x hx
      obtain ⟨e, he, hf⟩ := h.held k g hg x hx
      rcases k2 e he with he | rfl
      · exact ⟨e, he, hf⟩
      · exact ⟨_, k3, hf⟩

/-- Putting a certificate of this CA into the pool. -/
theorem add_entries (hX : X.Laws) {m : CATicks} (hm : MadeInv c root X m) {l : List PEntry} (h : HeldInv m l) {x : Cert}
    (hx : x ∈ m.made) :
    ∃ l', Represents (addAll m.s.pool [x.toPrecert X]) l' ∧ (∀ e ∈ l, e ∈ l') ∧
      (∀ e ∈ l', e.cert.raw = [] ∧ e.cert.rawSubject = e.name ∧ e.cert.subjectKeyId = e.ski) ∧
      (∀ e ∈ l', ∃ z ∈ m.made, EntryFor z e) ∧ ∃ e ∈ l', EntryFor x e := by
  obtain ⟨p', h1, h2⟩ := poolOp_spec h.rep (.add (x.toPrecert X))
  simp only [poolOp] at h1
  simp only [addAll, h1]
  refine ⟨_, h2, ?_⟩
  have f1 : (x.toPrecert X).rawSubject = x.rawSubject := rfl
  have f2 : (x.toPrecert X).subjectKeyId = x.subjectKeyId := rfl
  have f3 : (x.toPrecert X).raw = [] := rfl
  simp only [specOp, f1, f2, f3]
  split
  · rename_i ha
    refine ⟨fun e he => he, h.plain, h.made, ?_⟩
    simp only [List.any_eq_true, Bool.and_eq_true, decide_eq_true_eq] at ha
    obtain ⟨e, he, hn, _⟩ := ha
    obtain ⟨z, hz, hz1, hz2⟩ := h.made e he
    have : z = x := made_subject c root hX hm hz hx (hz1.symm.trans hn)
    subst this
    exact ⟨e, he, hz1, hz2⟩
  · refine ⟨fun e he => List.mem_append_left _ he, ?_, ?_, _, List.mem_append_right _ (List.mem_singleton.2 rfl), rfl, rfl⟩
    · intro e he
      rcases List.mem_append.1 he with he | he
      · exact h.plain e he
      · simp only [List.mem_singleton] at he; subst he; exact ⟨rfl, rfl, rfl⟩
    · intro e he
      rcases List.mem_append.1 he with he | he
      · exact h.made e he
      · simp only [List.mem_singleton] at he; subst he; exact ⟨x, hx, rfl, rfl⟩

/-- What a step of a round does to the pool and to the certificates the round holds. -/
theorem tickStep_held (hX : X.Laws) {m : CATicks} (hm : MadeInv c root X m) {l : List PEntry} (h : HeldInv m l) {k : Nat}
    {g : TickAt} (hk : m.gs[k]? = some g) {pub : Nat → Str} {t : Instant} {pos : List Nat} {s' : CAState} {new : List Cert}
    {g' : TickAt} (ht : tickStep X c root pub t pos m.s g = some (s', new, g'))
    (hr : ∀ certs, g = .reset certs → ∀ (j : Nat) g1, j ≠ k → m.gs[j]? = some g1 → g1.held = []) :
    ∃ l', HeldInv ⟨s', m.gs.set k g', m.made ++ new, m.dead⟩ l' := by
  -- the other rounds keep what they hold, if the entries are kept
  have others : ∀ l', Represents s'.pool l' → ((∀ e ∈ l, e ∈ l') ∨ (l' = [] ∧ ∃ certs, g = .reset certs)) →
      (∀ e ∈ l', e.cert.raw = [] ∧ e.cert.rawSubject = e.name ∧ e.cert.subjectKeyId = e.ski) →
      (∀ e ∈ l', ∃ z ∈ m.made, EntryFor z e) → (∀ x ∈ g'.all, x ∈ m.made ++ new) →
      (∀ x ∈ g'.held, ∃ e ∈ l', EntryFor x e) → HeldInv ⟨s', m.gs.set k g', m.made ++ new, m.dead⟩ l' := by
    intro l' h1 h2 h3 h4 h5 h6
    refine ⟨h1, h3, fun e he => ?_, ?_, ?_⟩
    · obtain ⟨z, hz, hf⟩ := h4 e he
      exact ⟨z, List.mem_append_left _ hz, hf⟩
    · intro j g1 hj x hx
      simp only at hj ⊢
      by_cases hjk : j = k
      · subst hjk
        rw [tick_set_get hk] at hj; cases hj
        exact h5 x hx
      · rw [List.getElem?_set_ne (Ne.symm hjk)] at hj
        exact List.mem_append_left _ (h.all j g1 hj x hx)
    · intro j g1 hj x hx
      simp only at hj
      by_cases hjk : j = k
      · subst hjk
        rw [tick_set_get hk] at hj; cases hj
        exact h6 x hx
      · rw [List.getElem?_set_ne (Ne.symm hjk)] at hj
        rcases h2 with h2 | ⟨_, certs, hg⟩
        · obtain ⟨e, he, hf⟩ := h.held j g1 hj x hx
          exact ⟨e, h2 e he, hf⟩
        · rw [hr certs hg j g1 hjk hj] at hx; cases hx
  have same : s'.pool = m.s.pool → (∀ x ∈ g'.all, x ∈ g.all ∨ x ∈ new) → (∀ x ∈ g'.held, x ∈ g.held) →
      ∃ l', HeldInv ⟨s', m.gs.set k g', m.made ++ new, m.dead⟩ l' := by
    intro e1 e2 e3
    refine ⟨l, others l (by rw [e1]; exact h.rep) (Or.inl fun _ he => he) h.plain h.made ?_ fun x hx => h.held k g hk x (e3 x hx)⟩
    intro x hx
    rcases e2 x hx with hx | hx
    · exact List.mem_append_left _ (h.all k g hk x hx)
    · exact List.mem_append_right _ hx
  cases g with
  | begun => cases ht; exact same rfl (fun x hx => by cases hx) (fun x hx => by cases hx)
  | wiped =>
    simp only [tickStep] at ht
    split at ht <;> cases ht
    · exact same rfl (fun x hx => by cases hx) (fun x hx => by cases hx)
    · exact same rfl (fun x hx => by cases hx) (fun x hx => by cases hx)
  | rid pub0 off certs => cases ht; exact same rfl (fun x hx => Or.inl hx) (fun x hx => by cases hx)
  | bump pub0 off rid certs =>
    simp only [tickStep, Option.some.injEq, Prod.mk.injEq] at ht
    obtain ⟨rfl, rfl, rfl⟩ := ht
    refine same rfl ?_ ?_
    · intro x hx
      have hx' : x ∈ certs ++ [signCertificate X L.sha256 (genratePreCert X rid c.signer (dummySubject certs.length off)
          false).1 root (pub0 certs.length)] := by
        unfold nextMade at hx; split at hx <;> exact hx
      rcases List.mem_append.1 hx' with hx' | hx'
      · exact Or.inl hx'
      · exact Or.inr hx'
    · intro x hx
      unfold nextMade at hx
      split at hx
      · cases hx
      · simp [TickAt.held] at hx
  | add certs j =>
    simp only [tickStep] at ht
    split at ht
    · rename_i hn
      cases ht
      refine same rfl (fun x hx => Or.inl hx) ?_
      intro x hx
      simp only [TickAt.held] at hx ⊢
      rw [List.take_of_length_le (List.getElem?_eq_none_iff.1 hn)]
      exact hx
    · rename_i x0 hx0
      cases ht
      have hx0m : x0 ∈ m.made := h.all k _ hk x0 (List.mem_of_getElem? hx0)
      obtain ⟨l', a1, a2, a3, a4, a5⟩ := add_entries c root hX hm h hx0m
      refine ⟨l', others l' a1 (Or.inl a2) a3 a4 (fun x hx => List.mem_append_left _ (h.all k _ hk x hx)) ?_⟩
      intro x hx
      simp only [TickAt.held, List.take_succ, hx0, Option.toList_some, List.mem_append, List.mem_singleton] at hx
      rcases hx with hx | rfl
      · obtain ⟨e, he, hf⟩ := h.held k _ hk x hx
        exact ⟨e, a2 e he, hf⟩
      · exact a5
  | post certs j =>
    simp only [tickStep, Option.some.injEq, Prod.mk.injEq] at ht
    obtain ⟨rfl, rfl, rfl⟩ := ht
    refine same rfl ?_ ?_
    · intro x hx; left; unfold nextAdd at hx; split at hx <;> exact hx
    · intro x hx
      unfold nextAdd at hx
      split at hx
      · exact hx
      · simp only [TickAt.held] at hx ⊢
        rw [List.take_of_length_le (by omega)]
        exact hx
  | armed certs =>
    simp only [tickStep, Option.map_eq_some_iff, Prod.mk.injEq] at ht
    obtain ⟨s1, _, rfl, rfl, rfl⟩ := ht
    exact same rfl (fun x hx => Or.inl hx) (fun x hx => hx)
  | reset certs =>
    cases ht
    refine ⟨[], others [] represents_new (Or.inr ⟨rfl, certs, rfl⟩) (fun e he => by cases he) (fun e he => by cases he)
      (fun x hx => List.mem_append_left _ (h.all k _ hk x hx)) (fun x hx => by cases hx)⟩
  | done certs => cases ht; exact same rfl (fun x hx => Or.inl hx) (fun x hx => hx)

theorem heldInv_step (hX : X.Laws) {m : CATicks} (hm : MadeInv c root X m) {l : List PEntry} (h : HeldInv m l) (e : CATickEvent)
    (hr : ∀ k pub t pos, e = .run k pub t pos → ∀ certs, m.gs[k]? = some (.reset certs) →
      ∀ (j : Nat) g, j ≠ k → m.gs[j]? = some g → g.held = []) :
    ∃ l', HeldInv (caTickStep X c root m e) l' := by
  cases hd : m.dead with
  | true => rw [caTickStep_dead c root hd]; exact ⟨l, h⟩
  | false =>
    unfold caTickStep
    rw [if_neg (by rw [hd]; decide)]
    cases e with
    | tick =>
      refine ⟨l, h.rep, h.plain, h.made, ?_, ?_⟩
      all_goals
        intro k g hk x hx
        rcases List.mem_append.1 (List.mem_of_getElem? hk) with hq | hq
        · obtain ⟨j, hj⟩ := List.getElem?_of_mem hq
          first | exact h.all j g hj x hx | exact h.held j g hj x hx
        · simp only [List.mem_singleton] at hq; subst hq; cases hx
    | run k pub t pos =>
      simp only
      cases hk : m.gs[k]? with
      | none => exact ⟨l, h⟩
      | some g =>
        simp only
        cases ht : tickStep X c root pub t pos m.s g with
        | none => exact ⟨l, h.rep, h.plain, h.made, h.all, h.held⟩
        | some r =>
          obtain ⟨s', new, g'⟩ := r
          exact tickStep_held c root hX hm h hk ht fun certs hg => hr k pub t pos rfl certs (by rw [hk, hg])
    | sth g =>
      obtain ⟨n, hn⟩ := sth_frame c g m.s
      simp only [hn]
      exact ⟨l, h.rep, h.plain, h.made, h.all, h.held⟩
    | poi p => exact poi_entries h p
    | request t =>
      obtain ⟨n, hn⟩ := request_frame c t m.s
      simp only [hn]
      exact ⟨l, h.rep, h.plain, h.made, h.all, h.held⟩
    | revoke i => exact ⟨l, h.rep, h.plain, h.made, h.all, h.held⟩

theorem heldInv_run (hX : X.Laws) (h : List CATickEvent) {m : CATicks} (hm : MadeInv c root X m) {l : List PEntry}
    (hl : HeldInv m l) (hn : NeverTwoGenerate c root X m h) (ha : EndsApart c root X m h) :
    MadeInv c root X (caTickRun X c root m h) ∧ ∃ l', HeldInv (caTickRun X c root m h) l' := by
  induction h generalizing m l with
  | nil => exact ⟨hm, l, hl⟩
  | cons e r ih =>
    rw [caTickRun_cons]
    obtain ⟨l', hl'⟩ := heldInv_step c root hX hm hl e fun k pub t pos he certs hk =>
      ha [] k pub t pos r certs (by rw [he]; rfl) hk
    refine ih (madeInv_step c root hm (hn [] (e :: r) rfl) e) hl' ?_ ?_
    · intro h1 h2 he
      exact hn (e :: h1) h2 (by rw [he]; rfl)
    · intro h1 k pub t pos h2 certs he
      exact ha (e :: h1) k pub t pos h2 certs (by rw [he]; rfl)

/-- C135, a part: if no two rounds make certificates at the same time and no round ends while another one holds
certificates, every certificate a round has put into the pool or posted is in the pool until the round itself ends, however
the steps are interleaved with tree heads, proofs, requests and revocations; and `GetCertBySubjectKeyID`, which `receive_poi`
asks, finds it, provided no other certificate of the CA has the same key. -/
theorem C135_kept_partial (hX : X.Laws) (sha : Str → Str) (signer key : Str) (h : List CATickEvent)
    (hn : NeverTwoGenerate c root X (.init (initCA X sha signer key).2) h)
    (ha : EndsApart c root X (.init (initCA X sha signer key).2) h)
    (m : CATicks) (hm : m = caTickRun X c root (.init (initCA X sha signer key).2) h)
    (k : Nat) (g : TickAt) (hk : m.gs[k]? = some g) (x : Cert) (hx : x ∈ g.held) :
    (∃ y ∈ m.s.pool.certs, y.rawSubject = x.rawSubject ∧ y.subjectKeyId = x.subjectKeyId) ∧
    (x.subjectKeyId ≠ [] → (∀ z ∈ m.made, z.subjectKeyId = x.subjectKeyId → z = x) →
      ∃ y, m.s.pool.getBySKI x.subjectKeyId = .ok (some y) ∧ y.rawSubject = x.rawSubject ∧ y.subjectKeyId = x.subjectKeyId) := by
  obtain ⟨_, l, hl⟩ := heldInv_run c root hX h (m := .init (initCA X sha signer key).2) (l := [])
    ⟨rfl, fun j x hj => by simp [CATicks.init] at hj, fun k g hk => by simp [CATicks.init] at hk⟩
    ⟨represents_new, (fun e he => by cases he), (fun e he => by cases he), (fun k g hk => by simp [CATicks.init] at hk),
      (fun k g hk => by simp [CATicks.init] at hk)⟩ hn ha
  rw [← hm] at hl
  obtain ⟨e, he, e1, e2⟩ := hl.held k g hk x hx
  obtain ⟨_, p2, p3⟩ := hl.plain e he
  refine ⟨⟨e.cert, ?_, p2.trans e1, p3.trans e2⟩, ?_⟩
  · rw [hl.rep.certs]; exact List.mem_map_of_mem he
  · intro hne hz
    rw [getBySKI_spec hl.rep]
    unfold specLookup
    rw [if_neg hne]
    cases hf : l.find? (fun e => e.ski = x.subjectKeyId) with
    | none => exact absurd e2 (by simpa using List.find?_eq_none.1 hf e he)
    | some e' =>
      have hm' : e' ∈ l := List.mem_of_find?_eq_some hf
      have hs' : e'.ski = x.subjectKeyId := by simpa using List.find?_some hf
      obtain ⟨z, hzm, z1, z2⟩ := hl.made e' hm'
      have : z = x := hz z hzm (z2.symm.trans hs')
      subst this
      obtain ⟨_, q2, q3⟩ := hl.plain e' hm'
      exact ⟨e'.cert, rfl, q2.trans z1, q3.trans z2⟩

/-! ### Rounds that overlap -/

/-- Not a step of a round. -/
def CATickEvent.Message : CATickEvent → Prop
  | .run .. => False
  | _ => True

theorem poi_empty (p : POI) (s : CAState) (h : s.pool = CertPool.new) : caReceivePOI X p s = s := by
  unfold caReceivePOI
  simp only [h]
  rfl

theorem messages_frame (h : List CATickEvent) (hh : ∀ e ∈ h, e.Message) {m : CATicks} (hp : m.s.pool = CertPool.new) {j : Nat}
    {g : TickAt} (hj : m.gs[j]? = some g) :
    (caTickRun X c root m h).s.pool = CertPool.new ∧ (caTickRun X c root m h).gs[j]? = some g := by
  induction h generalizing m with
  | nil => exact ⟨hp, hj⟩
  | cons e r ih =>
    rw [caTickRun_cons]
    have he := hh e List.mem_cons_self
    have ih' := fun m' => @ih (fun e he => hh e (List.mem_cons_of_mem _ he)) m'
    cases hd : m.dead with
    | true => rw [caTickStep_dead c root hd]; exact ih' m hp hj
    | false =>
      unfold caTickStep
      rw [if_neg (by rw [hd]; decide)]
      cases e with
      | tick =>
        refine ih' _ hp ?_
        simp only
        rw [List.getElem?_append_left (List.getElem?_eq_some_iff.1 hj).1]
        exact hj
      | run k pub t pos => exact absurd he id
      | sth g1 =>
        obtain ⟨n, hn⟩ := sth_frame c g1 m.s
        simp only [hn]
        exact ih' _ hp hj
      | poi p =>
        simp only [poi_empty p m.s hp]
        exact ih' _ hp hj
      | request t =>
        obtain ⟨n, hn⟩ := request_frame c t m.s
        simp only [hn]
        exact ih' _ hp hj
      | revoke i => exact ih' _ hp hj

/-- C135, violated: f1 is armed only after all certificates are posted (CA/server.go:438), the next tick before anything is
done (341); if making and posting takes longer than 20 seconds, f1 of a round comes after the next round has begun, and
replaces the pool with all certificates the next round has put there. As long as that round takes no further step, none of
its certificates is found and every proof for one of them is dropped, whatever else arrives. -/
theorem C135_violated_late_end (m : CATicks) (hd : m.dead = false) (i j : Nat) (hij : i ≠ j) (old : List Cert) (g : TickAt)
    (hi : m.gs[i]? = some (.reset old)) (hj : m.gs[j]? = some g) (x : Cert) (hx : x ∈ g.held) (pub : Nat → Str) (t : Instant)
    (pos : List Nat) (h : List CATickEvent) (hh : ∀ e ∈ h, e.Message)
    (m' : CATicks) (hm : m' = caTickRun X c root m (.run i pub t pos :: h)) :
    m'.gs[j]? = some g ∧ x ∈ g.held ∧ m'.s.pool.certs = [] ∧ m'.s.pool.getBySKI x.subjectKeyId = .ok none ∧
      ∀ p, caReceivePOI X p m'.s = m'.s := by
  rw [hm, caTickRun_cons, caTickStep_run c root hd hi rfl]
  obtain ⟨h1, h2⟩ := messages_frame (X := X) c root h hh (m := ⟨{ m.s with pool := CertPool.new }, m.gs.set i (.done old),
    m.made ++ [], false⟩) (j := j) (g := g) rfl (by simp only; rw [List.getElem?_set_ne hij]; exact hj)
  refine ⟨h2, hx, ?_, ?_, fun p => poi_empty p _ h1⟩
  · rw [h1]; rfl
  · rw [h1]; rfl

theorem issueLoop_head (pub : Nat → Str) (off n i counter : Nat) :
    (issueLoop X L.sha256 root c.signer pub off (n + 1) i counter).1[0]? =
      some (signCertificate X L.sha256 (genratePreCert X counter c.signer (dummySubject i off) false).1 root (pub i)) := rfl

/-- C135, violated: two rounds that have read the same offset (see `C134_violated_same_subject`). The pool takes the first
certificate with a subject and drops every later one without a word (`contains` compares the raw bytes, which the
pre-certificates do not have): the first certificate of the second round is held by the round and posted to the loggers, but
no proof for it will ever find it. -/
theorem C135_violated_same_subject (hX : X.Laws) (m : CATicks) (hd : m.dead = false) (hp : m.s.pool = CertPool.new) (i j : Nat)
    (hij : i ≠ j) (hi : m.gs[i]? = some .wiped) (hj : m.gs[j]? = some .wiped) (n : Nat) (hN : c.certPerPeriod = n + 1)
    (p q : Nat → Str) (hpq : L.sha256 (p 0) ≠ L.sha256 (q 0)) (hp0 : L.sha256 (p 0) ≠ []) (hq0 : L.sha256 (q 0) ≠ [])
    (t : Instant) (pos : List Nat) (m' : CATicks)
    (hm : m' = caTickRun X c root m ([.run i p t pos, .run j q t pos] ++ alone p t pos i (2 * (n + 1)) ++
      alone q t pos j (2 * (n + 1)) ++ [.run i p t pos, .run j q t pos])) :
    m'.dead = false ∧ ∃ g x, m'.gs[j]? = some g ∧ x ∈ g.held ∧ m'.s.pool.getBySKI x.subjectKeyId = .ok none := by
  have hw : ∀ (pub : Nat → Str) (s : CAState), tickStep X c root pub t pos s .wiped = some (s, [], .rid pub s.certCounter []) :=
    fun pub s => by simp only [tickStep, if_pos (show 0 < c.certPerPeriod by omega)]
  have hj1 : (m.gs.set i (.rid p m.s.certCounter []))[j]? = some .wiped := by rw [List.getElem?_set_ne hij]; exact hj
  have hi2 : ((m.gs.set i (.rid p m.s.certCounter [])).set j (.rid q m.s.certCounter []))[i]? =
      some (.rid p m.s.certCounter []) := by
    rw [List.getElem?_set_ne (Ne.symm hij)]; exact tick_set_get hi
  rw [caTickRun_append, caTickRun_append, caTickRun_append, caTickRun_cons c root m, caTickStep_run c root hd hi (hw p _),
    caTickRun_cons c root ⟨m.s, m.gs.set i (.rid p m.s.certCounter []), m.made ++ [], false⟩, caTickStep_run c root (m := ⟨m.s, m.gs.set i (.rid p m.s.certCounter []), m.made ++ [], false⟩) rfl hj1
      (hw q _)] at hm
  have e0 : ∀ m0, caTickRun X c root m0 [] = m0 := fun _ => rfl
  rw [e0, alone_make c root p t pos p m.s.certCounter n ⟨m.s, _, _, false⟩ i [] rfl hi2 (by rw [hN]; simp)] at hm
  simp only [List.nil_append, List.length_nil] at hm
  generalize hA : (issueLoop X L.sha256 root c.signer p m.s.certCounter (n + 1) 0 m.s.certCounter).1 = A at hm
  have hj2 : (((m.gs.set i (.rid p m.s.certCounter [])).set j (.rid q m.s.certCounter [])).set i (.add A 0))[j]? =
      some (.rid q m.s.certCounter []) := by
    rw [List.getElem?_set_ne hij]; exact tick_set_get hj1
  rw [alone_make c root q t pos q m.s.certCounter n ⟨_, _, _, false⟩ j [] rfl hj2 (by rw [hN]; simp)] at hm
  simp only [List.nil_append, List.length_nil] at hm
  generalize hB : (issueLoop X L.sha256 root c.signer q m.s.certCounter (n + 1) 0 (m.s.certCounter + (n + 1))).1 = B at hm
  have hA0 : A[0]? = some (signCertificate X L.sha256 (genratePreCert X m.s.certCounter c.signer
      (dummySubject 0 m.s.certCounter) false).1 root (p 0)) := by rw [← hA]; rfl
  have hB0 : B[0]? = some (signCertificate X L.sha256 (genratePreCert X (m.s.certCounter + (n + 1)) c.signer
      (dummySubject 0 m.s.certCounter) false).1 root (q 0)) := by rw [← hB]; rfl
  -- the two first certificates
  have hs : ∀ a k, ∃ t0, signCertificate X L.sha256 (genratePreCert X a c.signer (dummySubject 0 m.s.certCounter) false).1 root
      k = X.createCert t0 root k ∧ t0.rawSubject = [] ∧ t0.subjectCN = dummySubject 0 m.s.certCounter ∧
      t0.subjectKeyId = L.sha256 k := fun a k => ⟨_, rfl, rfl, rfl, rfl⟩
  obtain ⟨t1, a1, a2, a3, a4⟩ := hs m.s.certCounter (p 0)
  obtain ⟨t2, b1, b2, b3, b4⟩ := hs (m.s.certCounter + (n + 1)) (q 0)
  rw [a1] at hA0
  rw [b1] at hB0
  generalize hx : X.createCert t1 root (p 0) = x at hA0
  generalize hy : X.createCert t2 root (q 0) = y at hB0
  have hxs : x.rawSubject = y.rawSubject := by
    rw [← hx, ← hy, hX.createRawSubject _ _ _ _ _ _ a2 b2, a3, b3]
  have hxk : x.subjectKeyId = L.sha256 (p 0) := by rw [← hx, hX.createSKI _ _ _ (by rw [a4]; exact hp0), a4]
  have hyk : y.subjectKeyId = L.sha256 (q 0) := by rw [← hy, hX.createSKI _ _ _ (by rw [b4]; exact hq0), b4]
  have hi3 : ((((m.gs.set i (.rid p m.s.certCounter [])).set j (.rid q m.s.certCounter [])).set i (.add A 0)).set j
      (.add B 0))[i]? = some (.add A 0) := by
    rw [List.getElem?_set_ne (Ne.symm hij)]; exact tick_set_get hi2
  have hj3 : (((((m.gs.set i (.rid p m.s.certCounter [])).set j (.rid q m.s.certCounter [])).set i (.add A 0)).set j
      (.add B 0)).set i (.post A 0))[j]? = some (.add B 0) := by
    rw [List.getElem?_set_ne hij]; exact tick_set_get hj2
  have hadd : ∀ (pub : Nat → Str) (s : CAState) (l : List Cert) (z : Cert), l[0]? = some z →
      tickStep X c root pub t pos s (.add l 0) = some ({ s with pool := addAll s.pool [z.toPrecert X] }, [], .post l 0) := by
    intro pub s l z hz
    simp only [tickStep, hz]
  rw [caTickRun_cons, caTickStep_run c root (m := ⟨_, _, _, false⟩) rfl hi3 (hadd p _ A x hA0), caTickRun_cons,
    caTickStep_run c root (m := ⟨_, _, _, false⟩) rfl hj3 (hadd q _ B y hB0), e0] at hm
  obtain ⟨l1, r1⟩ := (addAll_one (p := CertPool.new) ⟨[], represents_new⟩ (x.toPrecert X)).2
  have hpool : m'.s.pool = addAll (addAll CertPool.new [x.toPrecert X]) [y.toPrecert X] := by rw [hm]; simp only [hp]
  refine ⟨by rw [hm], .post B 0, y, by rw [hm]; exact tick_set_get hj3, ?_, ?_⟩
  · simp only [TickAt.held, Nat.zero_add]
    cases B with
    | nil => cases hB0
    | cons b r => simp only [List.getElem?_cons_zero, Option.some.injEq] at hB0; subst hB0; simp
  · rw [hpool]
    obtain ⟨p1, g1, g2⟩ := poolOp_spec represents_new (.add (x.toPrecert X))
    simp only [poolOp] at g1
    obtain ⟨p2, g3, g4⟩ := poolOp_spec g2 (.add (y.toPrecert X))
    simp only [poolOp] at g3
    simp only [addAll, g1, g3]
    rw [getBySKI_spec g4]
    have f1 : (x.toPrecert X).rawSubject = (y.toPrecert X).rawSubject := hxs
    have f2 : (x.toPrecert X).subjectKeyId = x.subjectKeyId := rfl
    have f3 : (x.toPrecert X).raw = (y.toPrecert X).raw := rfl
    simp only [specOp, List.any_nil, Bool.false_eq_true, if_false, List.nil_append, List.any_cons, f1, f3, decide_true,
      Bool.and_self, Bool.or_false, if_true]
    unfold specLookup
    rw [if_neg (by rw [hyk]; exact hq0)]
    simp only [f2, hxk, hyk, List.find?_cons, hpq, decide_false, List.find?_nil, Option.map_none]

/-! ### Rounds one after the other -/

/-- Every tick comes when all earlier rounds are over. -/
def SerialTicks (X : XLib) : CATicks → List CATickEvent → Prop
  | _, [] => True
  | m, e :: r => (e = .tick → ∀ g ∈ m.gs, ∃ certs, g = .done certs) ∧ SerialTicks X (caTickStep X c root m e) r

/-- All rounds but the last are over. -/
def LastOnly (m : CATicks) : Prop := ∀ (k : Nat) g, m.gs[k]? = some g → k + 1 < m.gs.length → ∃ certs, g = .done certs

theorem lastOnly_step {m : CATicks} (h : LastOnly m) (e : CATickEvent) (he : e = .tick → ∀ g ∈ m.gs, ∃ certs, g = .done certs) :
    LastOnly (caTickStep X c root m e) := by
  cases hd : m.dead with
  | true => rw [caTickStep_dead c root hd]; exact h
  | false =>
    unfold caTickStep
    rw [if_neg (by rw [hd]; decide)]
    cases e with
    | tick =>
      intro k g hk hl
      simp only [List.length_append, List.length_singleton] at hk hl
      rw [List.getElem?_append_left (by omega)] at hk
      exact he rfl g (List.mem_of_getElem? hk)
    | run k pub t pos =>
      simp only
      cases hk : m.gs[k]? with
      | none => exact h
      | some g =>
        simp only
        cases ht : tickStep X c root pub t pos m.s g with
        | none => exact h
        | some r =>
          obtain ⟨s', new, g'⟩ := r
          intro j g1 hj hl
          simp only [List.length_set] at hj hl
          by_cases hjk : j = k
          · subst hjk
            rw [tick_set_get hk] at hj; cases hj
            obtain ⟨certs, rfl⟩ := h j g hk hl
            cases ht
            exact ⟨certs, rfl⟩
          · rw [List.getElem?_set_ne (Ne.symm hjk)] at hj
            exact h j g1 hj hl
    | sth g => exact h
    | poi p => exact h
    | request t => exact h
    | revoke i => exact h

theorem lastOnly_prefix (h1 h2 : List CATickEvent) {m : CATicks} (hm : LastOnly m) (hs : SerialTicks c root X m (h1 ++ h2)) :
    LastOnly (caTickRun X c root m h1) := by
  induction h1 generalizing m with
  | nil => exact hm
  | cons e r ih => exact ih (lastOnly_step c root hm e hs.1) hs.2

/-- C134 and C135 for rounds one after the other: if every tick comes when the earlier rounds are over, the hypotheses of
`C134_ids_and_subjects_partial` and `C135_kept_partial` are met. -/
theorem C135_serial_rounds_partial (m : CATicks) (hm : m.gs = []) (h : List CATickEvent) (hs : SerialTicks c root X m h) :
    NeverTwoGenerate c root X m h ∧ EndsApart c root X m h := by
  have h0 : LastOnly m := fun k g hk => by rw [hm] at hk; simp at hk
  constructor
  · intro h1 h2 he i j g g' hi hj hg hg'
    have hl := lastOnly_prefix c root h1 h2 h0 (by rw [← he]; exact hs)
    have key : ∀ (k : Nat) g, (caTickRun X c root m h1).gs[k]? = some g → g.generating →
        k + 1 = (caTickRun X c root m h1).gs.length := by
      intro k g hk hq
      have := (List.getElem?_eq_some_iff.1 hk).1
      by_cases hlt : k + 1 < (caTickRun X c root m h1).gs.length
      · obtain ⟨certs, rfl⟩ := hl k g hk hlt
        exact absurd hq id
      · omega
    have a := key i g hi hg
    have b := key j g' hj hg'
    omega
  · intro h1 k pub t pos h2 certs he hk j g hjk hj
    have hl := lastOnly_prefix c root h1 (.run k pub t pos :: h2) h0 (by rw [← he]; exact hs)
    have b1 := (List.getElem?_eq_some_iff.1 hk).1
    have b2 := (List.getElem?_eq_some_iff.1 hj).1
    have hkl : ¬ k + 1 < (caTickRun X c root m h1).gs.length := by
      intro hlt
      obtain ⟨_, e⟩ := hl k _ hk hlt
      cases e
    obtain ⟨certs', rfl⟩ := hl j g hj (by omega)
    rfl

theorem serial_append (h1 h2 : List CATickEvent) (m : CATicks) (h : SerialTicks c root X m h1)
    (h' : SerialTicks c root X (caTickRun X c root m h1) h2) : SerialTicks c root X m (h1 ++ h2) := by
  induction h1 generalizing m with
  | nil => exact h'
  | cons e r ih => exact ⟨h.1, ih _ h.2 h'⟩

theorem serial_alone (pub : Nat → Str) (t : Instant) (pos : List Nat) (k n : Nat) (m : CATicks) :
    SerialTicks c root X m (alone pub t pos k n) := by
  induction n generalizing m with
  | zero => trivial
  | succ n ih => exact ⟨(fun h => by cases h), ih _⟩

/-- The end of a round and the next round, alone. -/
theorem roundAfterRound (hX : X.Laws) {m : CATicks} {certs : List Cert} (hg : m.gs = [.armed certs]) (hd : m.dead = false)
    (hr : Rep m.s.pool) (hw : m.s.crv.WF) (p q : Nat → Str) (t t' : Instant) (pos pos' : List Nat) :
    SerialTicks c root X m (alone p t pos 0 2 ++ ([.tick] ++ alone q t' pos' 1 (4 * c.certPerPeriod + 2))) ∧
    ∃ certs', (caTickRun X c root m (alone p t pos 0 2 ++ ([.tick] ++ alone q t' pos' 1 (4 * c.certPerPeriod + 2)))).gs =
      [.done certs, .armed certs'] ∧ certs'.length = c.certPerPeriod ∧
      (caTickRun X c root m (alone p t pos 0 2 ++ ([.tick] ++ alone q t' pos' 1 (4 * c.certPerPeriod + 2)))).made =
        m.made ++ certs' := by
  obtain ⟨s', hs⟩ := endRound_total c hX hw t pos
  have e1 := (C134_alone_partial (X := X) c root p t pos m 0 hd hr).2 certs s' (by rw [hg]; rfl) hs
  have hgs : m.gs.set 0 (.done certs) = [.done certs] := by rw [hg]; rfl
  rw [hgs] at e1
  have hpool : s'.pool = CertPool.new := by
    obtain ⟨_, _, _, _, rfl⟩ := endRound_some X c hs
    rfl
  have e2 : caTickStep X c root ⟨s', [.done certs], m.made, false⟩ .tick = ⟨s', [.done certs, .begun], m.made, false⟩ := rfl
  obtain ⟨certs', e3, e4⟩ := (C134_alone_partial (X := X) c root q t' pos' ⟨s', [.done certs, .begun], m.made, false⟩ 1 rfl
    (by simp only [hpool]; exact rep_new)).1 rfl
  constructor
  · refine serial_append c root _ _ _ (serial_alone c root _ _ _ _ _ _) ?_
    rw [e1]
    refine ⟨?_, serial_alone c root _ _ _ _ _ _⟩
    intro _ g hgm
    simp only [List.mem_singleton] at hgm
    exact ⟨certs, hgm⟩
  · rw [caTickRun_append, e1, caTickRun_append, caTickRun_cons, e2]
    have e0 : caTickRun X c root ⟨s', [.done certs, .begun], m.made, false⟩ [] = ⟨s', [.done certs, .begun], m.made, false⟩ := rfl
    rw [e0, e3]
    refine ⟨certs', rfl, ?_, rfl⟩
    have : (startRound X c root q s').issued = s'.issued ++
        (issueLoop X L.sha256 root c.signer q s'.certCounter c.certPerPeriod 0 s'.certCounter).1 := rfl
    simp only at e4
    rw [this] at e4
    rw [← List.append_cancel_left e4, issueLoop_length]

/-! ### Examples -/

namespace Ref

/-- A CA that has just started. -/
def tick0 : CATicks := .init caInit

/-- The first round, up to the arming of f1; the second tick; the second round up to the posting of its first certificate. -/
def lateEnd : List CATickEvent :=
  [.tick] ++ alone (leafKey 0) at58 [9] 0 10 ++ [.tick] ++ alone (leafKey 1) at58 [9] 1 7

theorem lateEnd_state : ∃ certs certs', (caTickRun xlib caConf caRoot tick0 lateEnd).gs = [.armed certs, .post certs' 0] ∧
    certs'.length = 2 ∧ (caTickRun xlib caConf caRoot tick0 lateEnd).dead = false ∧
    (caTickRun xlib caConf caRoot tick0 lateEnd).s.crv = CRV.init := ⟨_, _, rfl, rfl, rfl, rfl⟩

/-- C135, violated: f1 of the first round comes when the second round has put its first certificate into the pool. -/
example : ∃ m m' : CATicks, m = caTickRun xlib caConf caRoot tick0 (lateEnd ++ [.run 0 (leafKey 0) at58 [9]]) ∧
    m' = caTickRun xlib caConf caRoot m (.run 0 (leafKey 0) at58 [9] :: [.tick, .revoke 3]) ∧
    ∃ g x, m'.gs[1]? = some g ∧ x ∈ g.held ∧ m'.s.pool.certs = [] ∧ ∀ p, caReceivePOI xlib p m'.s = m'.s := by
  obtain ⟨certs, certs', hg, hl, hd, hcrv⟩ := lateEnd_state
  rw [caTickRun_append]
  revert hg hd hcrv
  generalize caTickRun xlib caConf caRoot tick0 lateEnd = m0
  intro hg hd hcrv
  obtain ⟨s', hs⟩ := endRound_total caConf xlaws (s := m0.s) (by
    rw [hcrv]; exact initCA_wf (X := xlib) lib.sha256 (go!"C1") (go!"rootkey")) at58 [9]
  have h0 : m0.gs[0]? = some (.armed certs) := by rw [hg]; rfl
  have ht : tickStep xlib caConf caRoot (leafKey 0) at58 [9] m0.s (.armed certs) =
      some ({ s' with pool := m0.s.pool }, [], .reset certs) := by simp only [tickStep, hs, Option.map_some]
  rw [caTickRun_cons, caTickStep_run caConf caRoot hd h0 ht]
  refine ⟨_, _, rfl, rfl, .post certs' 0, certs'[0], ?_⟩
  obtain ⟨r1, r2, r3, _, r5⟩ := C135_violated_late_end (X := xlib) caConf caRoot
    ⟨{ s' with pool := m0.s.pool }, m0.gs.set 0 (.reset certs), m0.made ++ [], false⟩ rfl 0 1 (by decide) certs
    (.post certs' 0) (tick_set_get h0) (by simp only [hg]; rfl) certs'[0]
    (by simp only [TickAt.held]; exact List.mem_take_iff_getElem.2 ⟨0, by rw [hl]; decide, rfl⟩) (leafKey 0) at58 [9]
    [.tick, .revoke 3] (by intro e he; simp only [List.mem_cons, List.not_mem_nil, or_false] at he; rcases he with rfl | rfl <;> trivial) _ rfl
  exact ⟨r1, r2, r3, r5⟩

/-- Two rounds that have both wiped the tree heads, and that have both read their offset. -/
def bothWiped : CATicks := caTickRun xlib caConf caRoot tick0 [.tick, .tick, .run 0 (leafKey 0) at58 [], .run 1 (leafKey 1) at58 []]
def bothRead : CATicks := caTickRun xlib caConf caRoot bothWiped [.run 0 (leafKey 0) at58 [], .run 1 (leafKey 1) at58 []]

/-- C134, violated: two certificates with id 1. -/
example : ∃ m' x y, caTickRun xlib caConf caRoot bothRead [.run 0 (leafKey 0) at58 [], .run 1 (leafKey 0) at58 [],
      .run 0 (leafKey 0) at58 [], .run 1 (leafKey 0) at58 []] = m' ∧
    m'.dead = false ∧ m'.made = bothRead.made ++ [x, y] ∧ x.rid xlib = bothRead.s.certCounter ∧
    y.rid xlib = bothRead.s.certCounter ∧ m'.s.certCounter = bothRead.s.certCounter + 2 :=
  C134_violated_same_id caConf caRoot xlaws bothRead rfl 0 1 (by decide) (leafKey 0) (leafKey 1) 1 1 [] [] rfl rfl
    (by decide +kernel) (leafKey 0) at58 []

/-- C134, violated: ids 1 and 2, both with the subject "Testing Dummy 1". -/
example : ∃ m' x y, caTickRun xlib caConf caRoot bothWiped [.run 0 (leafKey 0) at58 [], .run 1 (leafKey 1) at58 [],
      .run 0 (leafKey 0) at58 [], .run 0 (leafKey 0) at58 [], .run 1 (leafKey 1) at58 [], .run 1 (leafKey 1) at58 []] = m' ∧
    m'.dead = false ∧ m'.made = bothWiped.made ++ [x, y] ∧ x.subjectCN = y.subjectCN ∧
    x.rid xlib = bothWiped.s.certCounter ∧ y.rid xlib = bothWiped.s.certCounter + 1 :=
  C134_violated_same_subject caConf caRoot xlaws bothWiped rfl 0 1 (by decide) rfl rfl (by decide) (by decide +kernel)
    (leafKey 0) (leafKey 1) at58 []

/-- C135, violated: the first certificate of the second round is posted but not in the pool. -/
example : ∃ m' : CATicks, m'.dead = false ∧ ∃ g x, m'.gs[1]? = some g ∧ x ∈ g.held ∧
    m'.s.pool.getBySKI x.subjectKeyId = .ok none :=
  ⟨_, C135_violated_same_subject caConf caRoot xlaws bothWiped rfl rfl 0 1 (by decide) rfl rfl 1 rfl (leafKey 0) (leafKey 1)
    (by decide +kernel) (by decide +kernel) (by decide +kernel) at58 [] _ rfl⟩

/-- C134 and C135: a round up to its end, then a second one up to the arming of f1. -/
def serialTwo : List CATickEvent :=
  [.tick] ++ alone (leafKey 0) at58 [9] 0 10 ++ alone (leafKey 0) at58 [9] 0 2 ++ [.tick] ++ alone (leafKey 1) at59 [] 1 10

theorem serialTwo_ok : SerialTicks caConf caRoot xlib tick0 serialTwo ∧
    ∃ certs certs', (caTickRun xlib caConf caRoot tick0 serialTwo).gs = [.done certs, .armed certs'] ∧ certs'.length = 2 ∧
      (caTickRun xlib caConf caRoot tick0 serialTwo).made.length = 4 := by
  have h1 : ∃ certs, (caTickRun xlib caConf caRoot tick0 ([.tick] ++ alone (leafKey 0) at58 [9] 0 10)).gs = [.armed certs] ∧
      (caTickRun xlib caConf caRoot tick0 ([.tick] ++ alone (leafKey 0) at58 [9] 0 10)).dead = false ∧
      (caTickRun xlib caConf caRoot tick0 ([.tick] ++ alone (leafKey 0) at58 [9] 0 10)).s.crv = CRV.init ∧
      (caTickRun xlib caConf caRoot tick0 ([.tick] ++ alone (leafKey 0) at58 [9] 0 10)).made.length = 2 := ⟨_, rfl, rfl, rfl, rfl⟩
  have hser : SerialTicks caConf caRoot xlib tick0 ([.tick] ++ alone (leafKey 0) at58 [9] 0 10) :=
    ⟨(fun _ g hg => by cases hg), serial_alone caConf caRoot _ _ _ _ _ _⟩
  have hrep : Rep (caTickRun xlib caConf caRoot tick0 ([.tick] ++ alone (leafKey 0) at58 [9] 0 10)).s.pool := by
    obtain ⟨_, l, hl⟩ := heldInv_run (X := xlib) caConf caRoot xlaws _ (m := tick0) (l := [])
      ⟨rfl, fun j x hj => by simp [tick0, CATicks.init] at hj, fun k g hk => by simp [tick0, CATicks.init] at hk⟩
      ⟨represents_new, (fun e he => by cases he), (fun e he => by cases he), (fun k g hk => by simp [tick0, CATicks.init] at hk),
        (fun k g hk => by simp [tick0, CATicks.init] at hk)⟩
      (C135_serial_rounds_partial caConf caRoot tick0 rfl _ hser).1 (C135_serial_rounds_partial caConf caRoot tick0 rfl _ hser).2
    exact ⟨l, hl.rep⟩
  obtain ⟨certs, hg, hd, hcrv, hmade⟩ := h1
  obtain ⟨r1, r2⟩ := roundAfterRound (X := xlib) caConf caRoot xlaws hg hd hrep (by
    rw [hcrv]; exact initCA_wf (X := xlib) lib.sha256 (go!"C1") (go!"rootkey")) (leafKey 0) (leafKey 1) at58 at59 [9] []
  have e : serialTwo = ([.tick] ++ alone (leafKey 0) at58 [9] 0 10) ++ (alone (leafKey 0) at58 [9] 0 2 ++ ([.tick] ++
      alone (leafKey 1) at59 [] 1 (4 * caConf.certPerPeriod + 2))) := by
    unfold serialTwo; rfl
  rw [e]
  refine ⟨serial_append caConf caRoot _ _ _ hser r1, ?_⟩
  rw [caTickRun_append]
  obtain ⟨certs', r3, r4, r5⟩ := r2
  refine ⟨certs, certs', r3, r4, ?_⟩
  rw [r5, List.length_append, hmade, r4]
  rfl

/-- C134: four certificates with ids and subjects 1 to 4. -/
example : (caTickRun xlib caConf caRoot tick0 serialTwo).made.length = 4 ∧ ∀ (j : Nat) x,
    (caTickRun xlib caConf caRoot tick0 serialTwo).made[j]? = some x →
      x.rid xlib = j + 1 ∧ x.subjectCN = go!"Testing Dummy " ++ itoa (j + 1) := by
  obtain ⟨_, _, _, _, h4⟩ := serialTwo_ok.2
  exact ⟨h4, (C134_ids_and_subjects_partial caConf caRoot xlaws lib.sha256 (go!"C1") (go!"rootkey") serialTwo
    (C135_serial_rounds_partial caConf caRoot tick0 rfl _ serialTwo_ok.1).1 _ rfl (by
      have e : caTickRun xlib caConf caRoot (CATicks.init (initCA xlib lib.sha256 (go!"C1") (go!"rootkey")).2) serialTwo =
        caTickRun xlib caConf caRoot tick0 serialTwo := rfl
      rw [e, h4]; decide)).1⟩

/-- C135: the two certificates of the second round are in the pool. -/
example : ∃ certs', (caTickRun xlib caConf caRoot tick0 serialTwo).gs[1]? = some (.armed certs') ∧ certs'.length = 2 ∧
    ∀ x ∈ certs', ∃ y ∈ (caTickRun xlib caConf caRoot tick0 serialTwo).s.pool.certs, y.rawSubject = x.rawSubject ∧
      y.subjectKeyId = x.subjectKeyId := by
  obtain ⟨certs, certs', hg, hl, _⟩ := serialTwo_ok.2
  have h1 : (caTickRun xlib caConf caRoot tick0 serialTwo).gs[1]? = some (.armed certs') := by rw [hg]; rfl
  refine ⟨certs', h1, hl, fun x hx => ?_⟩
  obtain ⟨a, b⟩ := C135_serial_rounds_partial caConf caRoot tick0 rfl _ serialTwo_ok.1
  exact (C135_kept_partial caConf caRoot xlaws lib.sha256 (go!"C1") (go!"rootkey") serialTwo a b _ rfl 1 _ h1 x hx).1

end Ref

end CTng
