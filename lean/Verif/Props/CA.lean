import Verif.Model.CA
import Verif.Spec.XLaws
import Verif.Props.Util
import Verif.Props.CertPool
import Verif.Proofs.Itoa
/- Properties of the certificate authority: C54, C55, C56, C58, C59, C60. -/
set_option autoImplicit false

namespace CTng

/-! ### Reading the extension -/

theorem foldl_parse (X : XLib) (l : List (Str × Str)) (acc : CTngExt) :
    l.foldl (fun acc e => if e.1 = oidCTng then X.decExt e.2 else acc) acc =
      (match (l.filter (fun e => e.1 = oidCTng)).getLast? with
        | none => acc
        | some e => X.decExt e.2) := by
  induction l generalizing acc with
  | nil => rfl
  | cons a t ih =>
    simp only [List.foldl_cons]
    rw [ih]
    by_cases h : a.1 = oidCTng
    · simp only [h, if_true, decide_true, List.filter_cons_of_pos, List.getLast?_cons]
      cases (t.filter (fun e => e.1 = oidCTng)).getLast? <;> simp
    · simp only [h, if_false, decide_false, Bool.false_eq_true, not_false_eq_true, List.filter_cons_of_neg]

theorem parseExt_eq (X : XLib) (c : Cert) :
    c.parseExt X = (match (c.extensions.filter (fun e => e.1 = oidCTng)).getLast? with
        | none => CTngExt.zero
        | some e => X.decExt e.2) := foldl_parse X c.extensions CTngExt.zero

/-! ### C54: revocation ids -/

theorem signed_rid {X : XLib} (hX : X.Laws) (sha : Str → Str) (n : Nat) (icn scn : Str) (isCA : Bool) (root : Cert)
    (pub : Str) (hn : n < 2 ^ 63) :
    (signCertificate X sha (genratePreCert X n icn scn isCA).1 root pub).rid X = n := by
  have hp : CTngExt.Plain ⟨n, []⟩ := ⟨hn, by intro l h; simp at h⟩
  simp only [Cert.rid, parseExt_eq, signCertificate, hX.createExt]
  simp [genratePreCert, hX.ext _ hp]

theorem issueLoop_counter (X : XLib) (sha : Str → Str) (root : Cert) (signer : Str) (pub : Nat → Str) (offset : Nat)
    (n i counter : Nat) : (issueLoop X sha root signer pub offset n i counter).2 = counter + n := by
  induction n generalizing i counter with
  | zero => rfl
  | succ n ih => simp only [issueLoop, genratePreCert, ih]; omega

theorem issueLoop_length (X : XLib) (sha : Str → Str) (root : Cert) (signer : Str) (pub : Nat → Str) (offset : Nat)
    (n i counter : Nat) : (issueLoop X sha root signer pub offset n i counter).1.length = n := by
  induction n generalizing i counter with
  | zero => rfl
  | succ n ih => simp [issueLoop, genratePreCert, ih]

theorem issueLoop_rids {X : XLib} (hX : X.Laws) (sha : Str → Str) (root : Cert) (signer : Str) (pub : Nat → Str)
    (offset : Nat) (n i counter : Nat) (h : counter + n ≤ 2 ^ 63) :
    (issueLoop X sha root signer pub offset n i counter).1.map (Cert.rid X) = List.range' counter n := by
  induction n generalizing i counter with
  | zero => rfl
  | succ n ih =>
    simp only [issueLoop, List.map_cons]
    rw [signed_rid hX _ _ _ _ _ _ _ (by omega), List.range'_succ]
    congr 1
    exact ih (i + 1) (counter + 1) (by omega)

section Runs
variable {L : Lib} (X : XLib) (c : CAConf L) (root : Cert)

/-- Induction over the histories of a CA. -/
theorem caRun_induct {P : CAState → Prop} {s0 : CAState} (h0 : P s0)
    (hs : ∀ s e s', P s → caStep X c root s e = some s' → P s') (evs : List CAEvent) {s : CAState}
    (h : caRun X c root s0 evs = some s) : P s := by
  induction evs generalizing s0 with
  | nil => simp only [caRun, Option.some.injEq] at h; exact h ▸ h0
  | cons e t ih =>
    simp only [caRun] at h
    split at h
    · cases h
    · rename_i s1 h1
      exact ih (hs _ _ _ h0 h1) h

theorem caRun_append (a b : List CAEvent) (s : CAState) :
    caRun X c root s (a ++ b) = (caRun X c root s a).bind fun s' => caRun X c root s' b := by
  induction a generalizing s with
  | nil => rfl
  | cons e t ih =>
    simp only [List.cons_append, caRun]
    cases caStep X c root s e with
    | none => rfl
    | some s1 => exact ih s1

theorem endRound_some {t : Instant} {pos : List Nat} {s s' : CAState} (h : endRound X c t pos s = some s') :
    ∃ rev fake, generateRevocation X c { s with crv := if s.fresh then s.crv.massRevoke pos else s.crv, fresh := false }
        (caNextPeriod t) false = some rev ∧
      generateRevocation X c { s with crv := if s.fresh then s.crv.massRevoke pos else s.crv, fresh := false }
        (caNextPeriod t) true = some fake ∧
      s' = { s with crv := (if s.fresh then s.crv.massRevoke pos else s.crv).closePeriod, fresh := false
                    revStorage := s.revStorage.set (caNextPeriod t) rev
                    revStorageFake := s.revStorageFake.set (caNextPeriod t) fake
                    onlineDuration := if s.requestCount > 0 then s.onlineDuration + 1 else s.onlineDuration
                    requestCount := 0
                    pool := CertPool.new } := by
  unfold endRound at h
  simp only at h
  split at h
  · rename_i rev fake h1 h2
    exact ⟨rev, fake, h1, h2, (Option.some.inj h).symm⟩
  · cases h

theorem poi_frame (p : POI) (s : CAState) : ∃ pool, caReceivePOI X p s = { s with pool := pool } := by
  unfold caReceivePOI
  simp only
  split
  · split
    · exact ⟨_, rfl⟩
    · exact ⟨_, rfl⟩
  · exact ⟨_, rfl⟩

theorem sth_frame (g : GossipObj) (s : CAState) : ∃ m, caReceiveSTH c g s = { s with sthStorage := m } := by
  unfold caReceiveSTH
  split
  · exact ⟨_, rfl⟩
  · exact ⟨_, rfl⟩

theorem request_frame (t : Instant) (s : CAState) : ∃ n, (requestREV c t s).2 = { s with requestCount := n } := by
  unfold requestREV
  simp only
  split
  · exact ⟨_, rfl⟩
  · exact ⟨_, rfl⟩

/-- The certificates issued so far and the counter. -/
def IssuedInv (s : CAState) : Prop :=
  s.certCounter = s.issued.length + 1 ∧
  (s.certCounter ≤ 2 ^ 63 → s.issued.map (Cert.rid X) = List.range' 1 s.issued.length)

theorem issuedInv_init (sha : Str → Str) (signer pub : Str) : IssuedInv X (initCA X sha signer pub).2 :=
  ⟨rfl, fun _ => rfl⟩

variable {X}

theorem issuedInv_step (hX : X.Laws) {s s' : CAState} (e : CAEvent) (h : IssuedInv X s)
    (hs : caStep X c root s e = some s') : IssuedInv X s' := by
  cases e with
  | start pub =>
    simp only [caStep, Option.some.injEq] at hs
    subst hs
    obtain ⟨h1, h2⟩ := h
    refine ⟨?_, ?_⟩
    · simp only [startRound, issueLoop_counter, List.length_append, issueLoop_length]
      omega
    · simp only [startRound, issueLoop_counter, List.length_append, issueLoop_length, List.map_append]
      intro hle
      rw [h2 (by omega), issueLoop_rids hX _ _ _ _ _ _ _ _ hle, h1, Nat.add_comm s.issued.length 1,
        List.range'_append_1]
  | finish t pos =>
    obtain ⟨_, _, _, _, rfl⟩ := endRound_some X c hs
    exact h
  | request t =>
    simp only [caStep, Option.some.injEq] at hs
    obtain ⟨n, hn⟩ := request_frame c t s
    rw [hn] at hs; subst hs
    exact h
  | sth g =>
    simp only [caStep, Option.some.injEq] at hs
    obtain ⟨n, hn⟩ := sth_frame c g s
    rw [hn] at hs; subst hs
    exact h
  | poi p =>
    simp only [caStep, Option.some.injEq] at hs
    obtain ⟨n, hn⟩ := poi_frame X p s
    rw [hn] at hs; subst hs
    exact h
  | revoke i =>
    simp only [caStep, Option.some.injEq] at hs
    subst hs
    exact h

/-- C54. In every history of a CA the revocation ids in the leaf certificates it sent to the loggers, in order of
issuing and over all rounds, are 1, 2, 3, ... (up to the range of a 64 bit counter). -/
theorem C54_ids_consecutive (hX : X.Laws) (sha : Str → Str) (signer pub : Str) (evs : List CAEvent) (s : CAState)
    (h : caRun X c root (initCA X sha signer pub).2 evs = some s) (hlt : s.issued.length < 2 ^ 63) :
    s.issued.map (Cert.rid X) = List.range' 1 s.issued.length := by
  have := caRun_induct X c root (P := IssuedInv X) (issuedInv_init X sha signer pub)
    (fun s e s' hp hs => issuedInv_step c root hX e hp hs) evs h
  exact this.2 (by rw [this.1]; omega)

/-- C54. No two leaf certificates of one CA share a revocation id. -/
theorem C54_ids_unique (hX : X.Laws) (sha : Str → Str) (signer pub : Str) (evs : List CAEvent) (s : CAState)
    (h : caRun X c root (initCA X sha signer pub).2 evs = some s) (hlt : s.issued.length < 2 ^ 63)
    (i j : Nat) (hi : i < s.issued.length) (hj : j < s.issued.length)
    (he : (s.issued[i]).rid X = (s.issued[j]).rid X) : i = j := by
  have h1 := C54_ids_consecutive c root hX sha signer pub evs s h hlt
  have key : ∀ k (hk : k < s.issued.length), (s.issued[k]).rid X = 1 + k := by
    intro k hk
    have : (s.issued.map (Cert.rid X))[k]? = (List.range' 1 s.issued.length)[k]? := by rw [h1]
    rw [List.getElem?_map, List.getElem?_eq_getElem hk, List.getElem?_eq_getElem (by simpa using hk)] at this
    simpa using this
  rw [key i hi, key j hj] at he
  omega

/-- The root certificate carries id 1, the id of the first leaf: the counter is stepped back after self-signing
(CA/ca.go:119). -/
theorem C54_root_shares_first_leaf_id (hX : X.Laws) (sha : Str → Str) (signer pub : Str) :
    (initCA X sha signer pub).1.rid X = 1 :=
  signed_rid hX sha 1 signer signer true _ pub (by decide)

end Runs

/-! ### C55: bit sets and revocation vectors -/

namespace BitSet

theorem wf_testBit {b : BitSet} (h : b.WF) {j : Nat} (hj : b.len ≤ j) : b.bits.testBit j = false :=
  Nat.testBit_lt_two_pow (Nat.lt_of_lt_of_le h (Nat.pow_le_pow_right (by decide) hj))

/-- The length of a well-formed set is irrelevant to its elements. -/
theorem test_eq {b : BitSet} (h : b.WF) (j : Nat) : b.test j = b.bits.testBit j := by
  unfold test
  by_cases hj : j < b.len
  · simp [hj]
  · simp [hj, wf_testBit h (Nat.le_of_not_lt hj)]

theorem wf_new (n : Nat) : (new n).WF := Nat.two_pow_pos n

theorem test_new (n j : Nat) : (new n).test j = false := by simp [test, new]

theorem wf_mono {b n m : Nat} (h : b < 2 ^ n) (hm : n ≤ m) : b < 2 ^ m :=
  Nat.lt_of_lt_of_le h (Nat.pow_le_pow_right (by decide) hm)

theorem wf_set {b : BitSet} (h : b.WF) (i : Nat) : (b.set i).WF := by
  unfold WF set
  simp only
  split
  · rename_i hi
    exact Nat.or_lt_two_pow h (Nat.pow_lt_pow_right (by decide) hi)
  · rename_i hi
    exact Nat.or_lt_two_pow (wf_mono h (by omega)) (Nat.pow_lt_pow_right (by decide) (by omega))

theorem test_set {b : BitSet} (h : b.WF) (i j : Nat) : (b.set i).test j = (decide (j = i) || b.test j) := by
  rw [test_eq (wf_set h i), test_eq h]
  simp only [set, Nat.testBit_or, Nat.testBit_two_pow, eq_comm (a := i), Bool.or_comm]

theorem wf_symDiff {b d : BitSet} (h : b.WF) (h' : d.WF) : (b.symDiff d).WF :=
  Nat.xor_lt_two_pow (wf_mono h (Nat.le_max_left _ _)) (wf_mono h' (Nat.le_max_right _ _))

theorem test_symDiff {b d : BitSet} (h : b.WF) (h' : d.WF) (j : Nat) :
    (b.symDiff d).test j = (b.test j ^^ d.test j) := by
  rw [test_eq (wf_symDiff h h'), test_eq h, test_eq h']
  simp [symDiff]

theorem wf_union {b d : BitSet} (h : b.WF) (h' : d.WF) : (b.union d).WF :=
  Nat.or_lt_two_pow (wf_mono h (Nat.le_max_left _ _)) (wf_mono h' (Nat.le_max_right _ _))

theorem test_union {b d : BitSet} (h : b.WF) (h' : d.WF) (j : Nat) :
    (b.union d).test j = (b.test j || d.test j) := by
  rw [test_eq (wf_union h h'), test_eq h, test_eq h']
  simp [union]

theorem wf_setAll {b : BitSet} (h : b.WF) (l : List Nat) : (l.foldl set b).WF := by
  induction l generalizing b with
  | nil => exact h
  | cons a t ih => exact ih (wf_set h a)

theorem test_setAll {b : BitSet} (h : b.WF) (l : List Nat) (j : Nat) :
    (l.foldl set b).test j = true ↔ j ∈ l ∨ b.test j = true := by
  induction l generalizing b with
  | nil => simp
  | cons a t ih =>
    rw [List.foldl_cons, ih (wf_set h a), test_set h]
    simp only [Bool.or_eq_true, decide_eq_true_eq, List.mem_cons]
    constructor
    · rintro (h1 | h1 | h1)
      · exact .inl (.inr h1)
      · exact .inl (.inl h1)
      · exact .inr h1
    · rintro ((h1 | h1) | h1)
      · exact .inr (.inl h1)
      · exact .inl h1
      · exact .inr (.inr h1)

end BitSet

/-- Operations on a revocation vector. -/
inductive CRVOp where
  | revoke (i : Nat)
  | massRevoke (l : List Nat)
  | closePeriod

def CRVOp.run (c : CRV) : CRVOp → CRV
  | .revoke i => c.revoke i
  | .massRevoke l => c.massRevoke l
  | .closePeriod => c.closePeriod

/-- The positions an operation names. -/
def CRVOp.names : CRVOp → List Nat
  | .revoke i => [i]
  | .massRevoke l => l
  | .closePeriod => []

theorem crvOps {c : CRV} (h : c.current.WF) (ops : List CRVOp) :
    (ops.foldl CRVOp.run c).current.WF ∧
    ∀ j, (ops.foldl CRVOp.run c).current.test j = true ↔ (∃ o ∈ ops, j ∈ o.names) ∨ c.current.test j = true := by
  induction ops generalizing c with
  | nil => exact ⟨h, by simp⟩
  | cons o t ih =>
    have h1 : (o.run c).current.WF ∧ ∀ j, (o.run c).current.test j = true ↔ j ∈ o.names ∨ c.current.test j = true := by
      cases o with
      | revoke i => exact ⟨BitSet.wf_set h i, by intro j; simp [CRVOp.run, CRV.revoke, CRVOp.names, BitSet.test_set h]⟩
      | massRevoke l => exact ⟨BitSet.wf_setAll h l, BitSet.test_setAll h l⟩
      | closePeriod => exact ⟨h, by intro j; simp [CRVOp.run, CRV.closePeriod, CRVOp.names]⟩
    obtain ⟨h2, h3⟩ := ih h1.1
    refine ⟨h2, fun j => ?_⟩
    rw [List.foldl_cons, h3, h1.2]
    simp only [List.mem_cons, exists_eq_or_imp]
    constructor
    · rintro (h | h | h)
      · exact .inl (.inr h)
      · exact .inl (.inl h)
      · exact .inr h
    · rintro ((h | h) | h)
      · exact .inr (.inl h)
      · exact .inl h
      · exact .inr (.inr h)

/-- C55. After any sequence of operations on a fresh vector, the bits set are exactly the positions named by some
operation: nothing else is set, and nothing is ever cleared. -/
theorem C55_bits_exact (ops : List CRVOp) (j : Nat) :
    (ops.foldl CRVOp.run CRV.init).current.test j = true ↔ ∃ o ∈ ops, j ∈ o.names := by
  rw [(crvOps (BitSet.wf_new crvSize) ops).2]
  simp [CRV.init, BitSet.test_new]

/-- C55. A set bit stays set, whatever follows. -/
theorem C55_monotone (ops more : List CRVOp) (j : Nat)
    (h : (ops.foldl CRVOp.run CRV.init).current.test j = true) :
    ((ops ++ more).foldl CRVOp.run CRV.init).current.test j = true := by
  rw [C55_bits_exact] at h ⊢
  obtain ⟨o, ho, hj⟩ := h
  exact ⟨o, List.mem_append_left _ ho, hj⟩

example : ([CRVOp.revoke 7, .closePeriod, .massRevoke [3, 1000001]].foldl CRVOp.run CRV.init).current.test 1000001 = true ∧
    ([CRVOp.revoke 7, .closePeriod, .massRevoke [3, 1000001]].foldl CRVOp.run CRV.init).current.test 8 = false := by
  constructor
  · rw [C55_bits_exact]; exact ⟨.massRevoke [3, 1000001], by simp, by simp [CRVOp.names]⟩
  · rw [← Bool.not_eq_true, C55_bits_exact]; simp [CRVOp.names]

section Vector
variable {L : Lib} (X : XLib) (c : CAConf L) (root : Cert)

/-- The positions revoked in a history: those of the explicit calls and those of the mass revocation at the end of the
first period. -/
def revokedIn : Bool → List CAEvent → List Nat
  | _, [] => []
  | fresh, .revoke i :: t => i :: revokedIn fresh t
  | fresh, .finish _ pos :: t => (if fresh then pos else []) ++ revokedIn false t
  | fresh, .start _ :: t => revokedIn fresh t
  | fresh, .request _ :: t => revokedIn fresh t
  | fresh, .sth _ :: t => revokedIn fresh t
  | fresh, .poi _ :: t => revokedIn fresh t

/-- Does the history contain the end of a period? -/
def hasFinish : List CAEvent → Bool
  | [] => false
  | .finish _ _ :: _ => true
  | .start _ :: t => hasFinish t
  | .request _ :: t => hasFinish t
  | .sth _ :: t => hasFinish t
  | .poi _ :: t => hasFinish t
  | .revoke _ :: t => hasFinish t

/-- What a history does to the vector. -/
structure VecStep (s s' : CAState) (fresh : Bool) (evs : List CAEvent) : Prop where
  wf : s'.crv.current.WF
  bits : ∀ j, s'.crv.current.test j = true ↔ j ∈ revokedIn fresh evs ∨ s.crv.current.test j = true
  fresh : s'.fresh = (fresh && !hasFinish evs)
  pre : s'.crv.pre = if hasFinish evs then .alias else s.crv.pre

theorem vecStep (evs : List CAEvent) {s s' : CAState} (hw : s.crv.current.WF)
    (h : caRun X c root s evs = some s') : VecStep s s' s.fresh evs := by
  induction evs generalizing s with
  | nil =>
    simp only [caRun, Option.some.injEq] at h
    subst h
    exact ⟨hw, by simp [revokedIn], by simp [hasFinish], by simp [hasFinish]⟩
  | cons e t ih =>
    simp only [caRun] at h
    split at h
    · cases h
    rename_i s1 h1
    cases e with
    | start pub =>
      simp only [caStep, Option.some.injEq] at h1
      subst h1
      obtain ⟨a, b, d, e⟩ := ih (s := startRound X c root pub s) hw h
      exact ⟨a, b, d, e⟩
    | finish tt pos =>
      obtain ⟨_, _, _, _, rfl⟩ := endRound_some X c h1
      cases hf : s.fresh with
      | true =>
        rw [hf] at h
        obtain ⟨a, b, d, e⟩ := ih (BitSet.wf_setAll hw pos) h
        refine ⟨a, fun j => ?_, by rw [d]; simp [hasFinish], by rw [e]; simp [hasFinish, CRV.closePeriod]⟩
        rw [b j]
        have hm : ((s.crv.massRevoke pos).closePeriod).current.test j = true ↔ j ∈ pos ∨ s.crv.current.test j = true :=
          BitSet.test_setAll hw pos j
        simp only [if_true, revokedIn, List.mem_append, hm]
        constructor
        · rintro (h | h | h)
          · exact .inl (.inr h)
          · exact .inl (.inl h)
          · exact .inr h
        · rintro ((h | h) | h)
          · exact .inr (.inl h)
          · exact .inl h
          · exact .inr (.inr h)
      | false =>
        rw [hf] at h
        obtain ⟨a, b, d, e⟩ := ih (by exact hw) h
        exact ⟨a, by simpa [revokedIn, CRV.closePeriod] using b, by rw [d]; simp [hasFinish], by rw [e]; simp [hasFinish, CRV.closePeriod]⟩
    | request tt =>
      simp only [caStep, Option.some.injEq] at h1
      obtain ⟨n, hn⟩ := request_frame c tt s
      rw [hn] at h1; subst h1
      obtain ⟨a, b, d, e⟩ := ih (s := { s with requestCount := n }) hw h
      exact ⟨a, b, d, e⟩
    | sth g =>
      simp only [caStep, Option.some.injEq] at h1
      obtain ⟨n, hn⟩ := sth_frame c g s
      rw [hn] at h1; subst h1
      obtain ⟨a, b, d, e⟩ := ih (s := { s with sthStorage := n }) hw h
      exact ⟨a, b, d, e⟩
    | poi p =>
      simp only [caStep, Option.some.injEq] at h1
      obtain ⟨n, hn⟩ := poi_frame X p s
      rw [hn] at h1; subst h1
      obtain ⟨a, b, d, e⟩ := ih (s := { s with pool := n }) hw h
      exact ⟨a, b, d, e⟩
    | revoke i =>
      simp only [caStep, Option.some.injEq] at h1
      subst h1
      obtain ⟨a, b, d, e⟩ := ih (s := { s with crv := s.crv.revoke i }) (BitSet.wf_set hw i) h
      refine ⟨a, fun j => ?_, d, e⟩
      rw [b j]
      simp only [CRV.revoke, BitSet.test_set hw, revokedIn, Bool.or_eq_true, decide_eq_true_eq, List.mem_cons]
      constructor
      · rintro (h | h | h)
        · exact .inl (.inr h)
        · exact .inl (.inl h)
        · exact .inr h
      · rintro ((h | h) | h)
        · exact .inr (.inl h)
        · exact .inl h
        · exact .inr (.inr h)

/-- C55, over whole histories of a CA (issuing, requests, tree heads, proofs, period ends in any order): the revoked
certificates are exactly those named by a call of `Revoke` and by the mass revocation at the end of the first period. -/
theorem C55_history_exact (sha : Str → Str) (signer pub : Str) (evs : List CAEvent) (s : CAState)
    (h : caRun X c root (initCA X sha signer pub).2 evs = some s) (j : Nat) :
    s.crv.current.test j = true ↔ j ∈ revokedIn true evs := by
  have := (vecStep X c root evs (s := (initCA X sha signer pub).2) (BitSet.wf_new crvSize) h).bits j
  rw [this]
  simp [initCA, generateRoot, CRV.init, BitSet.test_new]

end Vector

/-! ### C56: published deltas -/

theorem itoa_ascii (n : Nat) : Ascii (itoa n) := by
  intro ch h
  have := (itoa_digit n ch h).2
  simp only [UInt8.le_iff_toNat_le, UInt8.lt_iff_toNat_lt] at *
  simp at *
  omega

theorem ascii_append {a b : Str} (ha : Ascii a) (hb : Ascii b) : Ascii (a ++ b) := by
  intro ch h
  rcases List.mem_append.1 h with h | h
  · exact ha ch h
  · exact hb ch h

theorem ascii_nil : Ascii [] := by intro c h; cases h

theorem rsaStr_ascii (r : RSASig) (h : Ascii r.id) : Ascii r.toStr := by
  unfold RSASig.toStr
  refine ascii_append (ascii_append (ascii_append (ascii_append ?_ (Ref.hexEncode_ascii _)) ?_) h) ?_ <;>
    (unfold Ascii; decide)

theorem sign_ascii {L : Lib} (msg : Str) (k : L.RsaPriv) (id : Str) (h : Ascii id) :
    Ascii ((rsaSignMsg msg k id).getD zeroSig).toStr := by
  apply rsaStr_ascii
  unfold rsaSignMsg
  cases L.rsaSign k (L.sha256 msg) with
  | none => exact ascii_nil
  | some s => exact h

section Deltas
variable {L : Lib} (X : XLib) (c : CAConf L) (root : Cert)

/-- The delta a client or monitor decodes from the revocation a CA holds for a period. -/
def publishedDelta (s : CAState) (period : Str) : Option BitSet :=
  (s.revStorage.get period).bind fun g => X.unmarshal (X.decompress (X.decRev g.payload.p2).deltaCRV)

/-- Applying a delta (exclusive or) to one vector gives another. -/
def AppliesTo (old d new : BitSet) : Prop := ∀ j, new.test j = (old.test j ^^ d.test j)

/-- The vectors of a CA are well-formed bit sets. -/
def CRV.WF (v : CRV) : Prop := v.current.WF ∧ ∀ b, v.pre = .own b → b.WF

theorem CRV.delta_wf {v : CRV} (h : v.WF) : v.delta.WF := by
  unfold CRV.delta
  cases hp : v.pre with
  | alias => exact BitSet.wf_new _
  | own b => exact BitSet.wf_symDiff h.1 (h.2 b hp)

variable {X}

theorem generate_some (hX : X.Laws) {s : CAState} (h : s.crv.WF) (period : Str) (fake : Bool) :
    ∃ g, generateRevocation X c s period fake = some g := by
  unfold generateRevocation revDelta
  cases fake with
  | true => simp [hX.bits _ (CRV.delta_wf h)]
  | false => simp

theorem generate_decodes (hX : X.Laws) {s : CAState} (h : s.crv.WF) (period : Str) (hp : Ascii period)
    (hid : Ascii c.crypto.selfID) (g : GossipObj) (hg : generateRevocation X c s period false = some g) :
    X.unmarshal (X.decompress (X.decRev g.payload.p2).deltaCRV) = some s.crv.delta ∧
      (X.decRev g.payload.p2).period = period := by
  simp only [generateRevocation, revDelta, Bool.false_eq_true, if_false, Option.map_some, Option.some.injEq] at hg
  subst hg
  simp only
  rw [hX.rev _ ⟨hp, sign_ascii _ _ _ hid⟩]
  simp [hX.compress, hX.bits _ (CRV.delta_wf h)]

theorem massRevoke_wf {v : CRV} (h : v.WF) (l : List Nat) : (v.massRevoke l).WF := ⟨BitSet.wf_setAll h.1 l, h.2⟩

theorem round_wf {s : CAState} (h : s.crv.WF) (pos : List Nat) :
    (if s.fresh then s.crv.massRevoke pos else s.crv).WF := by
  split
  · exact massRevoke_wf h pos
  · exact h

theorem endRound_total (hX : X.Laws) {s : CAState} (h : s.crv.WF) (t : Instant) (pos : List Nat) :
    ∃ s', endRound X c t pos s = some s' := by
  obtain ⟨r, hr⟩ := generate_some c hX (s := { s with crv := if s.fresh then s.crv.massRevoke pos else s.crv, fresh := false })
    (round_wf h pos) (caNextPeriod t) false
  obtain ⟨f, hf⟩ := generate_some c hX (s := { s with crv := if s.fresh then s.crv.massRevoke pos else s.crv, fresh := false })
    (round_wf h pos) (caNextPeriod t) true
  rw [endRound]
  simp only [hr, hf]
  exact ⟨_, rfl⟩

theorem caStep_wf (hX : X.Laws) {s : CAState} (h : s.crv.WF) (e : CAEvent) :
    ∃ s', caStep X c root s e = some s' ∧ s'.crv.WF := by
  cases e with
  | start pub => exact ⟨_, rfl, h⟩
  | finish t pos =>
    obtain ⟨s', hs'⟩ := endRound_total c hX h t pos
    refine ⟨s', hs', ?_⟩
    obtain ⟨_, _, _, _, rfl⟩ := endRound_some X c hs'
    exact ⟨(round_wf h pos).1, by intro b hb; simp [CRV.closePeriod] at hb⟩
  | request t =>
    obtain ⟨n, hn⟩ := request_frame c t s
    exact ⟨_, rfl, by rw [hn]; exact h⟩
  | sth g =>
    obtain ⟨n, hn⟩ := sth_frame c g s
    exact ⟨_, rfl, by rw [hn]; exact h⟩
  | poi p =>
    obtain ⟨n, hn⟩ := poi_frame X p s
    exact ⟨_, rfl, by rw [hn]; exact h⟩
  | revoke i => exact ⟨_, rfl, BitSet.wf_set h.1 i, h.2⟩

/-- A CA never panics in its periodic task. -/
theorem caRun_total (hX : X.Laws) {s : CAState} (h : s.crv.WF) (evs : List CAEvent) :
    ∃ s', caRun X c root s evs = some s' ∧ s'.crv.WF := by
  induction evs generalizing s with
  | nil => exact ⟨s, rfl, h⟩
  | cons e t ih =>
    obtain ⟨s1, h1, hw⟩ := caStep_wf c root hX h e
    obtain ⟨s2, h2, hw2⟩ := ih hw
    exact ⟨s2, by simp [caRun, h1, h2], hw2⟩

theorem initCA_wf (sha : Str → Str) (signer pub : Str) : (initCA X sha signer pub).2.crv.WF :=
  ⟨BitSet.wf_new _, by intro b hb; simp only [initCA, CRV.init, PrePtr.own.injEq] at hb; exact hb ▸ BitSet.wf_new _⟩

/-- What is published at the end of a period: the whole vector at the end of the first period, nothing ever after. -/
theorem published_delta (hX : X.Laws) (hid : Ascii c.crypto.selfID) (sha : Str → Str) (signer pub : Str)
    (evs : List CAEvent) (t : Instant) (pos : List Nat) (s' : CAState)
    (h : caRun X c root (initCA X sha signer pub).2 (evs ++ [.finish t pos]) = some s') :
    ∃ d, publishedDelta X s' (caNextPeriod t) = some d ∧
      ∀ j, d.test j = true ↔ (hasFinish evs = false ∧ s'.crv.current.test j = true) := by
  rw [caRun_append] at h
  obtain ⟨s, hs, hw⟩ := caRun_total c root hX (initCA_wf (X := X) sha signer pub) evs
  rw [hs] at h
  have hv := vecStep X c root evs (s := (initCA X sha signer pub).2) (BitSet.wf_new crvSize) hs
  simp only [Option.bind_some, caRun, caStep] at h
  split at h
  · cases h
  rename_i s1 h1
  simp only [Option.some.injEq] at h
  subst h
  obtain ⟨r, _, hr, _, rfl⟩ := endRound_some X c h1
  refine ⟨(if s.fresh then s.crv.massRevoke pos else s.crv).delta, ?_, ?_⟩
  · have hg := (generate_decodes c hX (s := { s with crv := if s.fresh then s.crv.massRevoke pos else s.crv, fresh := false })
      (round_wf hw pos) (caNextPeriod t) (itoa_ascii _) hid r hr).1
    unfold publishedDelta
    rw [show (s.revStorage.set (caNextPeriod t) r).get (caNextPeriod t) = some r from GoMap.get_set_self _ _ _]
    exact hg
  · intro j
    cases hf : hasFinish evs with
    | true =>
      have hp : s.crv.pre = .alias := by rw [hv.pre, hf]; rfl
      have hfr : s.fresh = false := by rw [hv.fresh, hf]; simp
      simp [hfr, CRV.delta, hp, BitSet.test_new]
    | false =>
      have hp : s.crv.pre = .own (BitSet.new crvSize) := by rw [hv.pre, hf]; rfl
      have hfr : s.fresh = true := by rw [hv.fresh, hf]; rfl
      simp only [hfr, if_true, CRV.delta, CRV.massRevoke, hp, CRV.closePeriod, true_and]
      rw [BitSet.test_symDiff (BitSet.wf_setAll hw.1 pos) (BitSet.wf_new _), BitSet.test_new]
      simp

/-- C56, first period: the published delta applied to the empty vector gives the CA's vector. -/
theorem C56_first_period_partial (hX : X.Laws) (hid : Ascii c.crypto.selfID) (sha : Str → Str) (signer pub : Str)
    (evs : List CAEvent) (t : Instant) (pos : List Nat) (s' : CAState) (hfirst : hasFinish evs = false)
    (h : caRun X c root (initCA X sha signer pub).2 (evs ++ [.finish t pos]) = some s') :
    ∃ d, publishedDelta X s' (caNextPeriod t) = some d ∧ AppliesTo (BitSet.new crvSize) d s'.crv.current := by
  obtain ⟨d, h1, h2⟩ := published_delta c root hX hid sha signer pub evs t pos s' h
  refine ⟨d, h1, fun j => ?_⟩
  have := h2 j
  rw [BitSet.test_new, Bool.false_xor]
  cases hd : d.test j <;> cases hc : s'.crv.current.test j <;> simp_all

/-- C56, later periods: the published delta applied to the vector of the previous period gives the new one exactly when
nothing was revoked in between. Missing for the full property: any revocation after the first period. -/
theorem C56_later_periods_partial (hX : X.Laws) (hid : Ascii c.crypto.selfID) (sha : Str → Str) (signer pub : Str)
    (evs between : List CAEvent) (t0 t : Instant) (pos0 pos : List Nat) (s0 s' : CAState)
    (h0 : caRun X c root (initCA X sha signer pub).2 (evs ++ [.finish t0 pos0]) = some s0)
    (h : caRun X c root (initCA X sha signer pub).2 (evs ++ [.finish t0 pos0] ++ between ++ [.finish t pos]) = some s') :
    ∃ d, publishedDelta X s' (caNextPeriod t) = some d ∧
      (AppliesTo s0.crv.current d s'.crv.current ↔ ∀ j ∈ revokedIn false between, s0.crv.current.test j = true) := by
  obtain ⟨d, h1, h2⟩ := published_delta c root hX hid sha signer pub _ t pos s' h
  refine ⟨d, h1, ?_⟩
  have hfin : ∀ l : List CAEvent, hasFinish (l ++ [.finish t0 pos0] ++ between) = true := by
    intro l
    induction l with
    | nil => rfl
    | cons e r ih => cases e <;> first | rfl | exact ih
  have hd : ∀ j, d.test j = false := by
    intro j
    have := h2 j
    rw [hfin evs] at this
    simpa using this
  rw [List.append_assoc, caRun_append, h0, Option.bind_some] at h
  have hw : s0.crv.current.WF := (vecStep X c root _ (s := (initCA X sha signer pub).2) (BitSet.wf_new crvSize) h0).wf
  have hfr : s0.fresh = false := by
    have := (vecStep X c root _ (s := (initCA X sha signer pub).2) (BitSet.wf_new crvSize) h0).fresh
    rw [this]
    have : ∀ l : List CAEvent, hasFinish (l ++ [.finish t0 pos0]) = true := by
      intro l
      induction l with
      | nil => rfl
      | cons e r ih => cases e <;> first | rfl | exact ih
    simp [this]
  have hv := vecStep X c root _ hw h
  have hb : ∀ j, s'.crv.current.test j = true ↔ j ∈ revokedIn false between ∨ s0.crv.current.test j = true := by
    intro j
    rw [hv.bits j, hfr]
    have : ∀ l : List CAEvent, revokedIn false (l ++ [.finish t pos]) = revokedIn false l := by
      intro l
      induction l with
      | nil => rfl
      | cons e r ih => cases e <;> simp [revokedIn, ih]
    rw [this]
  constructor
  · intro ha j hj
    have := (hb j).2 (.inl hj)
    rw [ha j, hd j] at this
    simpa using this
  · intro ha j
    rw [hd j, Bool.xor_false]
    have := hb j
    have := ha j
    cases hc : s'.crv.current.test j <;> cases h0 : s0.crv.current.test j <;> simp_all

/-- C56 fails for every CA from the second period on: a certificate revoked then is missing from the published delta and
never appears in one, although the CA's own vector (and the hash it signs) has it. `CRV_pre_update` is set to the same
pointer as `CRV_current` (CA/server.go:423), so the two no longer differ. -/
theorem C56_violated_after_first_period (hX : X.Laws) (hid : Ascii c.crypto.selfID) (sha : Str → Str) (signer pub : Str)
    (evs : List CAEvent) (t0 t : Instant) (pos0 pos : List Nat) (i : Nat) (hi : i ∉ revokedIn true (evs ++ [.finish t0 pos0])) :
    ∃ s0 s' d, caRun X c root (initCA X sha signer pub).2 (evs ++ [.finish t0 pos0]) = some s0 ∧
      caRun X c root (initCA X sha signer pub).2 (evs ++ [.finish t0 pos0] ++ [.revoke i] ++ [.finish t pos]) = some s' ∧
      publishedDelta X s' (caNextPeriod t) = some d ∧ s'.crv.current.test i = true ∧ (∀ j, d.test j = false) ∧
      ¬ AppliesTo s0.crv.current d s'.crv.current := by
  obtain ⟨s0, h0, _⟩ := caRun_total c root hX (initCA_wf (X := X) sha signer pub) (evs ++ [.finish t0 pos0])
  obtain ⟨s', h', _⟩ := caRun_total c root hX (initCA_wf (X := X) sha signer pub)
    (evs ++ [.finish t0 pos0] ++ [.revoke i] ++ [.finish t pos])
  obtain ⟨d, h1, h2⟩ := C56_later_periods_partial c root hX hid sha signer pub evs [.revoke i] t0 t pos0 pos s0 s' h0 h'
  have hn : s0.crv.current.test i = false := by
    rw [← Bool.not_eq_true, C55_history_exact X c root sha signer pub _ s0 h0]
    exact hi
  obtain ⟨d', h3, h4⟩ := published_delta c root hX hid sha signer pub _ t pos s' h'
  obtain rfl : d = d' := by rw [h1] at h3; exact Option.some.inj h3
  have hfin : ∀ l : List CAEvent, hasFinish (l ++ [.finish t0 pos0] ++ [.revoke i]) = true := by
    intro l
    induction l with
    | nil => rfl
    | cons e r ih => cases e <;> first | rfl | exact ih
  refine ⟨s0, s', d, h0, h', h1, ?_, ?_, ?_⟩
  · rw [C55_history_exact X c root sha signer pub _ s' h']
    have hm : ∀ (l : List CAEvent) (b : Bool), i ∈ revokedIn b (l ++ [.finish t0 pos0] ++ [.revoke i] ++ [.finish t pos]) := by
      intro l
      induction l with
      | nil => intro b; simp [revokedIn]
      | cons e r ih => intro b; cases e <;> simp [revokedIn] <;> first | exact .inr (by simpa using ih _) | simpa using ih _
    exact hm evs true
  · intro j
    have := h4 j
    rw [hfin evs] at this
    simpa using this
  · rw [h2]
    intro ha
    rw [ha i (by simp [revokedIn])] at hn
    cases hn

end Deltas

/-! ### C58: requests -/

/-- What an authority may do with a request. -/
inductive Deviation where
  | none
  | lie
  | silence
  deriving DecidableEq

/-- The behaviour configured by the test types (CA/server.go:155-209): `k` counts the requests of the period, `online`
the earlier periods in which there were requests. Types 1 and 4 lie on every `interval`-th request of their second active
period; 2 never answers; 3 is silent throughout its second active period and on every `interval`-th request; 5 is silent in
its second active period; 6 is silent on every `interval`-th request of its second active period. -/
def deviation (type interval online k : Nat) : Deviation :=
  if (type = 1 ∨ type = 4) ∧ interval ∣ k ∧ online = 1 then .lie
  else if type = 2 ∨ (type = 3 ∧ (interval ∣ k ∨ online = 1)) ∨ (type = 5 ∧ online = 1) ∨
      (type = 6 ∧ interval ∣ k ∧ online = 1) ∨ 6 < type then .silence
  else .none

/-- The answer a behaviour gives. -/
def Deviation.answer (real fake : GossipObj) : Deviation → Answer
  | .none => .obj real
  | .lie => .obj fake
  | .silence => .nothing

theorem decide6_spec (type cnt interval online : Nat) (real fake : GossipObj) (hi : 0 < interval) :
    decide6 type cnt interval online real fake = (deviation type interval online cnt).answer real fake := by
  have h0 : ¬ interval = 0 := by omega
  have hd : ∀ k, k % interval = 0 ↔ interval ∣ k := fun k => (Nat.dvd_iff_mod_eq_zero).symm
  unfold decide6 deviation
  simp only [h0, if_false, hd]
  match type with
  | 0 => simp [Deviation.answer]
  | 1 => by_cases h : interval ∣ cnt ∧ online = 1 <;> simp [h, Deviation.answer]
  | 2 => simp [Deviation.answer]
  | 3 => by_cases h : interval ∣ cnt ∨ online = 1 <;> simp [h, Deviation.answer]
  | 4 => by_cases h : interval ∣ cnt ∧ online = 1 <;> simp [h, Deviation.answer]
  | 5 => by_cases h : online = 1 <;> simp [h, Deviation.answer]
  | 6 => by_cases h : interval ∣ cnt ∧ online = 1 <;> simp [h, Deviation.answer]
  | n + 7 => simp [Deviation.answer, show 6 < n + 7 by omega]

theorem caNextPeriod_eq (t : Instant) : caNextPeriod t = itoa (t.minute + 1) := by
  rw [caNextPeriod, C72_numeric_period, atoi_itoa]; rfl

theorem caServedPeriod_eq (t : Instant) : caServedPeriod t = itoa t.minute := by
  rw [caServedPeriod, C72_numeric_period, atoi_itoa]; rfl

section Requests
variable {L : Lib} (X : XLib) (c : CAConf L) (root : Cert)

/-- No period end in the history writes the statement of the given minute. -/
def untouched (minute : Nat) : List CAEvent → Prop
  | [] => True
  | .finish t _ :: r => t.minute + 1 ≠ minute ∧ untouched minute r
  | .start _ :: r => untouched minute r
  | .request _ :: r => untouched minute r
  | .sth _ :: r => untouched minute r
  | .poi _ :: r => untouched minute r
  | .revoke _ :: r => untouched minute r

theorem stored_frame (m : Nat) (evs : List CAEvent) {s s' : CAState} (h : caRun X c root s evs = some s')
    (hu : untouched m evs) : s'.revStorage.get (itoa m) = s.revStorage.get (itoa m) ∧
      s'.revStorageFake.get (itoa m) = s.revStorageFake.get (itoa m) := by
  induction evs generalizing s with
  | nil => simp only [caRun, Option.some.injEq] at h; subst h; exact ⟨rfl, rfl⟩
  | cons e t ih =>
    simp only [caRun] at h
    split at h
    · cases h
    rename_i s1 h1
    cases e with
    | start pub =>
      simp only [caStep, Option.some.injEq] at h1
      subst h1
      exact ih (s := startRound X c root pub s) h hu
    | finish tt pos =>
      obtain ⟨_, _, _, _, rfl⟩ := endRound_some X c h1
      have hne : itoa m ≠ caNextPeriod tt := by
        rw [caNextPeriod_eq]; intro e; exact hu.1 (itoa_inj e).symm
      have := ih h hu.2
      simp only [GoMap.get_set_ne _ _ hne] at this
      exact this
    | request tt =>
      simp only [caStep, Option.some.injEq] at h1
      obtain ⟨n, hn⟩ := request_frame c tt s
      rw [hn] at h1; subst h1
      exact ih (s := { s with requestCount := n }) h hu
    | sth g =>
      simp only [caStep, Option.some.injEq] at h1
      obtain ⟨n, hn⟩ := sth_frame c g s
      rw [hn] at h1; subst h1
      exact ih (s := { s with sthStorage := n }) h hu
    | poi p =>
      simp only [caStep, Option.some.injEq] at h1
      obtain ⟨n, hn⟩ := poi_frame X p s
      rw [hn] at h1; subst h1
      exact ih (s := { s with pool := n }) h hu
    | revoke i =>
      simp only [caStep, Option.some.injEq] at h1
      subst h1
      exact ih (s := { s with crv := s.crv.revoke i }) h hu

/-- The object stored for the minute of an instant. -/
def storedREV (t : Instant) (s : CAState) : GossipObj := (s.revStorage.get (itoa t.minute)).getD GossipObj.zero
def storedFakeREV (t : Instant) (s : CAState) : GossipObj := (s.revStorageFake.get (itoa t.minute)).getD GossipObj.zero

theorem requestREV_eq (t : Instant) (s : CAState) :
    (requestREV c t s).1 = decide6 c.caType (if c.caType ≠ 0 then s.requestCount + 1 else 1) c.misbehaviorInterval
      s.onlineDuration (storedREV t s) (storedFakeREV t s) := by
  simp only [requestREV, readObj, caServedPeriod_eq, storedREV, storedFakeREV]

/-- C58, honest CA: whatever happens in between (other requests, issuing, messages, revocations, ends of other minutes'
periods), two requests in the same minute get the same object, the one stored for that minute. -/
theorem C58_honest_ca (hc : c.caType = 0) (t t' : Instant) (hm : t'.minute = t.minute) (evs : List CAEvent)
    (s s' : CAState) (h : caRun X c root s evs = some s') (hu : untouched t.minute evs) :
    (requestREV c t s).1 = .obj (storedREV t s) ∧ (requestREV c t' s').1 = .obj (storedREV t s) := by
  have hf := stored_frame X c root t.minute evs h hu
  rw [requestREV_eq, requestREV_eq, hc]
  simp only [decide6, storedREV, hm, hf.1, and_self]

/-- Counters of a history: requests in the running period, and earlier periods with requests. -/
def counters : Nat × Nat → List CAEvent → Nat × Nat
  | n, [] => n
  | (k, o), .request _ :: r => counters (k + 1, o) r
  | (k, o), .finish _ _ :: r => counters (0, if k > 0 then o + 1 else o) r
  | n, .start _ :: r => counters n r
  | n, .sth _ :: r => counters n r
  | n, .poi _ :: r => counters n r
  | n, .revoke _ :: r => counters n r

theorem counters_run (hc : c.caType ≠ 0) (evs : List CAEvent) {s s' : CAState} (h : caRun X c root s evs = some s') :
    (s'.requestCount, s'.onlineDuration) = counters (s.requestCount, s.onlineDuration) evs := by
  induction evs generalizing s with
  | nil => simp only [caRun, Option.some.injEq] at h; subst h; rfl
  | cons e t ih =>
    simp only [caRun] at h
    split at h
    · cases h
    rename_i s1 h1
    cases e with
    | start pub =>
      simp only [caStep, Option.some.injEq] at h1
      subst h1
      exact ih (s := startRound X c root pub s) h
    | finish tt pos =>
      obtain ⟨_, _, _, _, rfl⟩ := endRound_some X c h1
      exact ih h
    | request tt =>
      simp only [caStep, requestREV, hc, ne_eq, not_false_eq_true, if_true, Option.some.injEq] at h1
      subst h1
      exact ih (s := { s with requestCount := s.requestCount + 1 }) h
    | sth g =>
      simp only [caStep, Option.some.injEq] at h1
      obtain ⟨n, hn⟩ := sth_frame c g s
      rw [hn] at h1; subst h1
      exact ih (s := { s with sthStorage := n }) h
    | poi p =>
      simp only [caStep, Option.some.injEq] at h1
      obtain ⟨n, hn⟩ := poi_frame X p s
      rw [hn] at h1; subst h1
      exact ih (s := { s with pool := n }) h
    | revoke i =>
      simp only [caStep, Option.some.injEq] at h1
      subst h1
      exact ih (s := { s with crv := s.crv.revoke i }) h

/-- C58, misbehaving CA: after any history, the next request is answered as configured, counting the requests of the
running period and the earlier periods with requests. -/
theorem C58_misbehaving_ca (hc : c.caType ≠ 0) (hi : 0 < c.misbehaviorInterval) (sha : Str → Str) (signer pub : Str)
    (evs : List CAEvent) (s : CAState) (h : caRun X c root (initCA X sha signer pub).2 evs = some s) (t : Instant) :
    (requestREV c t s).1 = (deviation c.caType c.misbehaviorInterval (counters (0, 0) evs).2
      ((counters (0, 0) evs).1 + 1)).answer (storedREV t s) (storedFakeREV t s) := by
  have := counters_run X c root hc evs h
  rw [requestREV_eq, decide6_spec _ _ _ _ _ _ hi]
  simp only [hc, ne_eq, not_false_eq_true, if_true]
  rw [show counters (0, 0) evs = (s.requestCount, s.onlineDuration) from this.symm]

/-- With interval 0 the types that use it panic on every request (division by zero, CA/server.go:164). -/
theorem C58_zero_interval_panics (hc : c.caType = 1 ∨ c.caType = 3 ∨ c.caType = 4 ∨ c.caType = 6)
    (hi : c.misbehaviorInterval = 0) (t : Instant) (s : CAState) : (requestREV c t s).1 = .panic := by
  rw [requestREV_eq]
  rcases hc with h | h | h | h <;> simp [h, hi, decide6]

/-! ### C59: the statement of a period -/

/-- C59 for the CA, minutes 0 to 58: the revocation built at the end of a minute, labelled with the next minute, is what
an honest CA answers in that minute. Missing for the full property: the wrap from minute 59 to minute 0. -/
theorem C59_ca_partial (hc : c.caType = 0) (t t' : Instant) (hm : t'.minute = t.minute + 1) (pos : List Nat)
    (evs : List CAEvent) (s s1 s2 : CAState) (h1 : caStep X c root s (.finish t pos) = some s1)
    (h2 : caRun X c root s1 evs = some s2) (hu : untouched t'.minute evs) :
    ∃ rev, generateRevocation X c { s with crv := if s.fresh then s.crv.massRevoke pos else s.crv, fresh := false }
        (itoa t'.minute) false = some rev ∧
      rev.period = itoa t'.minute ∧ rev.type = .REV_INIT ∧ rev.payload.p0 = c.signer ∧
      (requestREV c t' s2).1 = .obj rev := by
  obtain ⟨rev, _, hr, _, rfl⟩ := endRound_some X c h1
  rw [caNextPeriod_eq, ← hm] at hr
  refine ⟨rev, hr, ?_, ?_, ?_, ?_⟩
  · unfold generateRevocation revDelta at hr
    simp only [Bool.false_eq_true, if_false, Option.map_some, Option.some.injEq] at hr
    rw [← hr]
  · unfold generateRevocation revDelta at hr
    simp only [Bool.false_eq_true, if_false, Option.map_some, Option.some.injEq] at hr
    rw [← hr]
  · unfold generateRevocation revDelta at hr
    simp only [Bool.false_eq_true, if_false, Option.map_some, Option.some.injEq] at hr
    rw [← hr]
  · have hf := (stored_frame X c root t'.minute evs h2 hu).1
    rw [requestREV_eq, hc]
    have e : caNextPeriod t = itoa t'.minute := by rw [caNextPeriod_eq, hm]
    simp only [decide6, storedREV, hf, e, GoMap.get_set_self, Option.getD_some]

/-- C59 fails in minute 0: whatever happened before, an honest CA answers with an empty object, since the revocation for
that minute was filed under "60". -/
theorem C59_violated_ca_minute_zero (hc : c.caType = 0) (sha : Str → Str) (signer pub : Str) (evs : List CAEvent)
    (s : CAState) (h : caRun X c root (initCA X sha signer pub).2 evs = some s) (t : Instant) (ht : t.minute = 0) :
    (requestREV c t s).1 = .obj GossipObj.zero := by
  have hu : ∀ l : List CAEvent, untouched 0 l := by
    intro l
    induction l with
    | nil => exact True.intro
    | cons e r ih => cases e <;> first | exact ih | exact ⟨by omega, ih⟩
  have hf := (stored_frame X c root 0 evs h (hu evs)).1
  rw [requestREV_eq, hc]
  simp only [decide6, storedREV, ht, hf]
  rfl

end Requests

/-! ### C60: the extension -/

section Extension
variable {X : XLib}

/-- A certificate that carries a CTng extension. -/
def Cert.hasExt (c : Cert) : Prop := ∃ e ∈ c.extensions, e.1 = oidCTng

/-- What adding an entry should do to the list: append it unless an entry with the same tree-head signer exists. -/
def mergeInfo (l : List LoggerInfo) (n : LoggerInfo) : List LoggerInfo :=
  if n.sth.signer ∈ l.map (fun i => i.sth.signer) then l else l ++ [n]

theorem filter_map_fst (l : List (Str × Str)) (v : Str) :
    ((l.map fun e => if e.1 = oidCTng then (e.1, v) else e).filter fun e => e.1 = oidCTng) =
      (l.filter fun e => e.1 = oidCTng).map fun e => (e.1, v) := by
  induction l with
  | nil => rfl
  | cons a t ih =>
    by_cases h : a.1 = oidCTng
    · simp only [List.map_cons, h, if_true, decide_true, List.filter_cons_of_pos, ih]
    · simp only [List.map_cons, h, if_false, decide_false, Bool.false_eq_true, not_false_eq_true,
        List.filter_cons_of_neg, ih]

theorem updateExt_hasExt {c : Cert} (h : c.hasExt) (n : LoggerInfo) : (c.updateExt X n).hasExt := by
  obtain ⟨e, he, ho⟩ := h
  unfold Cert.updateExt
  simp only
  split
  · exact ⟨e, he, ho⟩
  · exact ⟨_, List.mem_map_of_mem he, by simp [ho]⟩

theorem updateExt_parse (hX : X.Laws) {c : Cert} (h : c.hasExt) (hp : (c.parseExt X).Plain) {n : LoggerInfo} (hn : n.Plain) :
    (c.updateExt X n).parseExt X = ⟨(c.parseExt X).rid, mergeInfo (c.parseExt X).loggers n⟩ := by
  have hany : ((c.parseExt X).loggers.any fun l => l.sth.signer = n.sth.signer) = true ↔
      n.sth.signer ∈ (c.parseExt X).loggers.map (fun i => i.sth.signer) := by
    simp only [List.any_eq_true, decide_eq_true_eq, List.mem_map]
  unfold Cert.updateExt mergeInfo
  simp only
  by_cases hc : n.sth.signer ∈ (c.parseExt X).loggers.map (fun i => i.sth.signer)
  · rw [if_pos (hany.2 hc), if_pos hc]
  · rw [if_neg (fun e => hc (hany.1 e)), if_neg hc]
    have hpl : CTngExt.Plain ⟨(c.parseExt X).rid, (c.parseExt X).loggers ++ [n]⟩ := by
      refine ⟨hp.rid, ?_⟩
      intro l hl
      rcases List.mem_append.1 hl with hl | hl
      · exact hp.loggers l hl
      · simp only [List.mem_singleton] at hl; exact hl ▸ hn
    rw [parseExt_eq]
    simp only
    rw [filter_map_fst, List.getLast?_map]
    obtain ⟨e, he, ho⟩ := h
    have hne : (c.extensions.filter fun e => e.1 = oidCTng) ≠ [] := by
      intro e0
      have : e ∈ c.extensions.filter fun e => e.1 = oidCTng := by simp [he, ho]
      rw [e0] at this
      cases this
    rw [List.getLast?_eq_some_getLast hne]
    simp only [Option.map_some]
    rw [hX.ext _ hpl]

theorem mergeInfo_plain {l : List LoggerInfo} (h : ∀ i ∈ l, i.Plain) {n : LoggerInfo} (hn : n.Plain) :
    ∀ i ∈ mergeInfo l n, i.Plain := by
  intro i hi
  unfold mergeInfo at hi
  split at hi
  · exact h i hi
  · rcases List.mem_append.1 hi with hi | hi
    · exact h i hi
    · simp only [List.mem_singleton] at hi; exact hi ▸ hn

theorem updates_parse (hX : X.Laws) (ns : List LoggerInfo) (hns : ∀ n ∈ ns, n.Plain) {c : Cert} (h : c.hasExt)
    (hp : (c.parseExt X).Plain) :
    (ns.foldl (Cert.updateExt X) c).parseExt X = ⟨(c.parseExt X).rid, ns.foldl mergeInfo (c.parseExt X).loggers⟩ := by
  induction ns generalizing c with
  | nil => rfl
  | cons n t ih =>
    have hn := hns n (by simp)
    have e := updateExt_parse hX h hp hn
    rw [List.foldl_cons, ih (fun m hm => hns m (by simp [hm])) (updateExt_hasExt h n)
      (by rw [e]; exact ⟨hp.rid, mergeInfo_plain hp.loggers hn⟩), e]
    rfl

/-- Facts about merging a list of entries. -/
theorem merge_facts (ns : List LoggerInfo) (l : List LoggerInfo) :
    (∃ added, ns.foldl mergeInfo l = l ++ added ∧ added.Sublist ns) ∧
    (∀ n ∈ ns, n.sth.signer ∈ (ns.foldl mergeInfo l).map (fun i => i.sth.signer)) ∧
    ((l.map (fun i => i.sth.signer)).Nodup → ((ns.foldl mergeInfo l).map (fun i => i.sth.signer)).Nodup) := by
  induction ns generalizing l with
  | nil => exact ⟨⟨[], by simp, .slnil⟩, by simp, by simp⟩
  | cons n t ih =>
    obtain ⟨⟨added, h1, hs⟩, h2, h3⟩ := ih (mergeInfo l n)
    have hin : n.sth.signer ∈ (mergeInfo l n).map (fun i => i.sth.signer) := by
      unfold mergeInfo
      split
      · assumption
      · simp
    refine ⟨?_, ?_, ?_⟩
    · by_cases hc : n.sth.signer ∈ l.map (fun i => i.sth.signer)
      · refine ⟨added, ?_, hs.cons n⟩
        rw [List.foldl_cons, h1, mergeInfo, if_pos hc]
      · refine ⟨n :: added, ?_, hs.cons_cons n⟩
        rw [List.foldl_cons, h1, mergeInfo, if_neg hc]
        simp
    · intro m hm
      rcases List.mem_cons.1 hm with rfl | hm
      · rw [List.foldl_cons, h1, List.map_append]
        exact List.mem_append_left _ hin
      · exact h2 m hm
    · intro hnd
      refine h3 ?_
      unfold mergeInfo
      split
      · exact hnd
      · rename_i hc
        rw [List.map_append, List.nodup_append]
        refine ⟨hnd, by simp, ?_⟩
        intro a ha b hb
        simp only [List.map_cons, List.map_nil, List.mem_singleton] at hb
        subst hb
        intro e
        exact hc (e ▸ ha)

/-- C60, for certificates with a CTng extension: after any sequence of updates, the id is unchanged, the earlier entries
are kept in order with new ones appended in order of arrival, every update has an entry with its signer, and there is at
most one entry per signer if there was before. -/
theorem C60_updates_partial (hX : X.Laws) (ns : List LoggerInfo) (hns : ∀ n ∈ ns, n.Plain) (c : Cert) (h : c.hasExt)
    (hp : (c.parseExt X).Plain) :
    let before := c.parseExt X
    let after := (ns.foldl (Cert.updateExt X) c).parseExt X
    after.rid = before.rid ∧ (∃ added, after.loggers = before.loggers ++ added ∧ added.Sublist ns) ∧
    (∀ n ∈ ns, n.sth.signer ∈ after.loggers.map (fun i => i.sth.signer)) ∧
    ((before.loggers.map (fun i => i.sth.signer)).Nodup → (after.loggers.map (fun i => i.sth.signer)).Nodup) := by
  intro before after
  have e : after = ⟨before.rid, ns.foldl mergeInfo before.loggers⟩ := updates_parse hX ns hns h hp
  rw [e]
  exact ⟨rfl, merge_facts ns before.loggers⟩

/-- C60. One update: added exactly when no entry has the same signer. -/
theorem C60_added_iff_partial (hX : X.Laws) (n : LoggerInfo) (hn : n.Plain) (c : Cert) (h : c.hasExt) (hp : (c.parseExt X).Plain) :
    ((c.updateExt X n).parseExt X).loggers =
      if ∃ l ∈ (c.parseExt X).loggers, l.sth.signer = n.sth.signer then (c.parseExt X).loggers
      else (c.parseExt X).loggers ++ [n] := by
  rw [updateExt_parse hX h hp hn]
  simp only [mergeInfo, List.mem_map]

/-- C60 fails for a certificate without the extension: the entry is lost (only existing extensions are rewritten). -/
theorem C60_violated_without_extension (X : XLib) (c : Cert) (h : ¬ c.hasExt) (n : LoggerInfo) :
    (c.updateExt X n).parseExt X = CTngExt.zero := by
  have hf : ∀ l : List (Str × Str), (∀ e ∈ l, e.1 ≠ oidCTng) → ∀ (f : Str × Str → Str × Str), (∀ e ∈ l, (f e).1 = e.1) →
      ((l.map f).filter fun e => e.1 = oidCTng) = [] := by
    intro l hl f hf
    rw [List.filter_eq_nil_iff]
    intro e he
    obtain ⟨x, hx, rfl⟩ := List.mem_map.1 he
    simp [hf x hx, hl x hx]
  have hno : ∀ e ∈ c.extensions, e.1 ≠ oidCTng := fun e he ho => h ⟨e, he, ho⟩
  have key : ((c.updateExt X n).extensions.filter fun e => e.1 = oidCTng) = [] := by
    unfold Cert.updateExt
    simp only
    split
    · have := hf c.extensions hno id (fun _ _ => rfl)
      rwa [List.map_id] at this
    · exact hf c.extensions hno _ (fun e he => by simp [hno e he])
  rw [parseExt_eq, key]; rfl

end Extension

section Pool
variable {L : Lib} {X : XLib} (c : CAConf L) (root : Cert)

theorem addCert_mem {p p' : CertPool} {x : Cert} (h : p.addCert x = .ok p') : ∀ y ∈ p'.certs, y ∈ p.certs ∨ y = x := by
  intro y hy
  unfold CertPool.addCert at h
  split at h
  · cases h
  · cases h; exact .inl hy
  · cases h
    simp only [List.mem_append, List.mem_singleton] at hy
    exact hy

theorem addAll_mem (l : List Cert) (p : CertPool) : ∀ y ∈ (addAll p l).certs, y ∈ p.certs ∨ y ∈ l := by
  induction l generalizing p with
  | nil => intro y hy; exact .inl hy
  | cons x t ih =>
    intro y hy
    unfold addAll at hy
    split at hy
    · rename_i p' hp
      rcases ih p' y hy with h | h
      · rcases addCert_mem hp y h with h | h
        · exact .inl h
        · exact .inr (h ▸ List.mem_cons_self)
      · exact .inr (List.mem_cons_of_mem _ h)
    · exact .inl hy

theorem getBySKI_mem {p : CertPool} {k : Str} {x : Cert} (h : p.getBySKI k = .ok (some x)) : x ∈ p.certs := by
  unfold CertPool.getBySKI at h
  split at h
  · cases h
  · split at h
    · cases h
    · rename_i hc
      cases h
      exact List.mem_of_getElem? hc

theorem updateBySKI_mem {p p' : CertPool} {k : Str} {x : Cert} (h : p.updateBySKI k x = .ok p') :
    ∀ y ∈ p'.certs, y ∈ p.certs ∨ y = x := by
  unfold CertPool.updateBySKI at h
  intro y hy
  split at h
  · cases h; exact .inl hy
  · split at h
    · cases h
      rcases List.mem_or_eq_of_mem_set hy with h | h
      · exact .inl h
      · exact .inr h
    · cases h

/-- The messages of a history are in the domain of the JSON contract. -/
def PlainEvents (evs : List CAEvent) : Prop :=
  ∀ e ∈ evs, match e with
    | .sth g => g.Plain
    | .poi p => p.Plain
    | _ => True

/-- A certificate of the pool. -/
def GoodExt (X : XLib) (x : Cert) : Prop :=
  x.hasExt ∧ (x.parseExt X).Plain ∧ ((x.parseExt X).loggers.map fun i => i.sth.signer).Nodup

structure PoolInv (X : XLib) (s : CAState) : Prop where
  certs : ∀ x ∈ s.pool.certs, GoodExt X x
  sths : ∀ k g, s.sthStorage.get k = some g → g.Plain

theorem zero_plain : GossipObj.zero.Plain :=
  { application := ascii_nil, period := ascii_nil, type := ⟨by decide, ascii_nil⟩, signer := ascii_nil,
    signers := (by intro s h; cases h), sig := ⟨ascii_nil, ascii_nil⟩, timestamp := ascii_nil, cryptoScheme := ascii_nil,
    payload := ⟨ascii_nil, ascii_nil, ascii_nil⟩ }

theorem goodExt_update (hX : X.Laws) {x : Cert} (h : GoodExt X x) {n : LoggerInfo} (hn : n.Plain) :
    GoodExt X (x.updateExt X n) := by
  obtain ⟨h1, h2, h3⟩ := h
  have e := updateExt_parse hX h1 h2 hn
  refine ⟨updateExt_hasExt h1 n, ?_, ?_⟩
  · rw [e]; exact ⟨h2.rid, mergeInfo_plain h2.loggers hn⟩
  · rw [e]; exact (merge_facts [n] _).2.2 h3

theorem goodExt_precert (hX : X.Laws) {x : Cert} (h : x.rid X < 2 ^ 63) : GoodExt X (x.toPrecert X) := by
  have hp : CTngExt.Plain ⟨x.rid X, []⟩ := ⟨h, by intro l hl; cases hl⟩
  have e : (x.toPrecert X).parseExt X = ⟨x.rid X, []⟩ := by
    have : (x.toPrecert X).parseExt X = X.decExt (X.encExt ⟨x.rid X, []⟩) := by
      simp [Cert.parseExt, Cert.toPrecert, Cert.rid]
    rw [this, hX.ext _ hp]
  exact ⟨⟨_, List.mem_singleton.2 rfl, rfl⟩, by rw [e]; exact hp, by rw [e]; exact List.nodup_nil⟩

theorem poolInv_step (hX : X.Laws) {s s' : CAState} (e : CAEvent) (hpe : PlainEvents [e])
    (h : s.certCounter ≤ 2 ^ 63 → PoolInv X s) (hs : caStep X c root s e = some s') :
    s'.certCounter ≤ 2 ^ 63 → PoolInv X s' := by
  intro hle
  cases e with
  | start pub =>
    simp only [caStep, Option.some.injEq] at hs
    subst hs
    simp only [startRound, issueLoop_counter] at hle ⊢
    have h0 := h (by omega)
    refine ⟨?_, by intro k g hk; simp at hk⟩
    intro x hx
    rcases addAll_mem _ _ x hx with hx | hx
    · exact h0.certs x hx
    · obtain ⟨y, hy, rfl⟩ := List.mem_map.1 hx
      apply goodExt_precert hX
      have hr : y.rid X ∈ List.range' s.certCounter c.certPerPeriod := by
        rw [← issueLoop_rids hX L.sha256 root c.signer pub s.certCounter c.certPerPeriod 0 s.certCounter hle]
        exact List.mem_map_of_mem hy
      simp only [List.mem_range'_1] at hr
      omega
  | finish t pos =>
    obtain ⟨_, _, _, _, rfl⟩ := endRound_some X c hs
    exact ⟨(by intro x hx; cases hx), (h hle).sths⟩
  | request t =>
    simp only [caStep, Option.some.injEq] at hs
    obtain ⟨n, hn⟩ := request_frame c t s
    rw [hn] at hs; subst hs
    exact ⟨(h hle).certs, (h hle).sths⟩
  | sth g =>
    simp only [caStep, Option.some.injEq, caReceiveSTH] at hs
    have hg : g.Plain := hpe (.sth g) (by simp)
    split at hs
    · subst hs
      refine ⟨(h hle).certs, ?_⟩
      intro k g' hk
      rw [GoMap.get_set] at hk
      split at hk
      · cases hk; exact hg
      · exact (h hle).sths k g' hk
    · subst hs; exact h hle
  | poi p =>
    have hp : p.Plain := hpe (.poi p) (by simp)
    simp only [caStep, Option.some.injEq, caReceivePOI] at hs
    split at hs
    · rename_i target ht
      split at hs
      · rename_i pool hpool
        subst hs
        have h0 := h hle
        refine ⟨?_, h0.sths⟩
        intro x hx
        rcases updateBySKI_mem hpool x hx with hx | rfl
        · exact h0.certs x hx
        · refine goodExt_update hX (h0.certs target (getBySKI_mem ht)) ⟨?_, hp⟩
          unfold readObj
          cases hk : s.sthStorage.get p.loggerID with
          | none => exact zero_plain
          | some g => exact h0.sths _ g hk
      · subst hs; exact h hle
    · subst hs; exact h hle
  | revoke i =>
    simp only [caStep, Option.some.injEq] at hs
    subst hs
    exact ⟨(h hle).certs, (h hle).sths⟩

/-- C60 over the histories of a CA: in whatever order tree heads and proofs arrive, repeated or not, every certificate in
the pool carries an extension with at most one entry per tree-head signer. -/
theorem C60_ca_pool_partial (hX : X.Laws) (sha : Str → Str) (signer pub : Str) (evs : List CAEvent) (hpe : PlainEvents evs)
    (s : CAState) (h : caRun X c root (initCA X sha signer pub).2 evs = some s) (hlt : s.issued.length < 2 ^ 63)
    (x : Cert) (hx : x ∈ s.pool.getCerts) :
    x.hasExt ∧ ((x.parseExt X).loggers.map fun i => i.sth.signer).Nodup := by
  have key : ∀ (evs : List CAEvent) (s0 s : CAState), PlainEvents evs → (s0.certCounter ≤ 2 ^ 63 → PoolInv X s0) →
      caRun X c root s0 evs = some s → (s.certCounter ≤ 2 ^ 63 → PoolInv X s) := by
    intro evs
    induction evs with
    | nil => intro s0 s _ h0 hr; simp only [caRun, Option.some.injEq] at hr; exact hr ▸ h0
    | cons e t ih =>
      intro s0 s hpe h0 hr
      simp only [caRun] at hr
      split at hr
      · cases hr
      rename_i s1 h1
      exact ih s1 s (fun e' he' => hpe e' (List.mem_cons_of_mem _ he'))
        (poolInv_step c root hX e (fun e' he' => by
          simp only [List.mem_singleton] at he'; subst he'; exact hpe e' (by simp)) h0 h1) hr
  have hi := caRun_induct X c root (P := IssuedInv X) (issuedInv_init X sha signer pub)
    (fun s e s' hp hs => issuedInv_step c root hX e hp hs) evs h
  have := key evs _ s hpe (fun _ => ⟨(by intro x hx; cases hx), by intro k g hk; cases hk⟩) h (by rw [hi.1]; omega)
  exact ⟨(this.certs x hx).1, (this.certs x hx).2.2⟩

end Pool

namespace Ref

/-- CA C1 issuing 2 certificates per period, honest. -/
def caConf : CAConf lib := ⟨go!"C1", conf (go!"C1"), 2, 0, 0⟩
def caRoot : Cert := (initCA xlib lib.sha256 (go!"C1") (go!"rootkey")).1
def caInit : CAState := (initCA xlib lib.sha256 (go!"C1") (go!"rootkey")).2
def leafKey (k : Nat) (i : Nat) : Str := go!"key" ++ itoa (10 * k + i)

/-- Three certificates rounds give ids 1..6. -/
example : ∃ s, caRun xlib caConf caRoot caInit [.start (leafKey 0), .revoke 3, .start (leafKey 1), .start (leafKey 2)] = some s ∧
    s.issued.map (Cert.rid xlib) = [1, 2, 3, 4, 5, 6] := ⟨_, rfl, by decide +kernel⟩

/-- Instants at minutes 58, 59 and 0. -/
def at58 : Instant := ⟨2024, 1, 1, 10, 58, 40, by decide, by decide, by decide, by decide, by decide, by decide⟩
def at59 : Instant := ⟨2024, 1, 1, 10, 59, 40, by decide, by decide, by decide, by decide, by decide, by decide⟩
def at00 : Instant := ⟨2024, 1, 1, 11, 0, 5, by decide, by decide, by decide, by decide, by decide, by decide⟩

/-- Certificate 4 is revoked explicitly in the first period, 7 in the second. -/
def caHistory : List CAEvent := [.revoke 4, .finish at58 [9], .revoke 7, .finish at59 []]

example : ∃ s, caRun xlib caConf caRoot caInit caHistory = some s ∧ s.crv.current.test 4 = true ∧
    s.crv.current.test 9 = true ∧ s.crv.current.test 7 = true ∧ s.crv.current.test 5 = false := by
  obtain ⟨s, hs, _⟩ := caRun_total caConf caRoot xlaws (initCA_wf (X := xlib) lib.sha256 (go!"C1") (go!"rootkey")) caHistory
  refine ⟨s, hs, ?_, ?_, ?_, ?_⟩
  · rw [C55_history_exact xlib caConf caRoot _ _ _ caHistory s hs]; simp [caHistory, revokedIn]
  · rw [C55_history_exact xlib caConf caRoot _ _ _ caHistory s hs]; simp [caHistory, revokedIn]
  · rw [C55_history_exact xlib caConf caRoot _ _ _ caHistory s hs]; simp [caHistory, revokedIn]
  · rw [← Bool.not_eq_true, C55_history_exact xlib caConf caRoot _ _ _ caHistory s hs]; simp [caHistory, revokedIn]

/-- The hypotheses of C56: the first period publishes certificate 4; the second publishes nothing though 7 was revoked. -/
example : ∃ s0 s' d, caRun xlib caConf caRoot caInit [.revoke 4, .finish at58 [9]] = some s0 ∧
    caRun xlib caConf caRoot caInit caHistory = some s' ∧
    publishedDelta xlib s' (caNextPeriod at59) = some d ∧ s'.crv.current.test 7 = true ∧ (∀ j, d.test j = false) ∧
    ¬ AppliesTo s0.crv.current d s'.crv.current :=
  C56_violated_after_first_period caConf caRoot xlaws (by unfold Ascii; decide) lib.sha256 (go!"C1") (go!"rootkey")
    [.revoke 4] at58 at59 [9] [] 7 (by simp [revokedIn])

/-- A type 4 CA with interval 2: in its second active period it lies on every other request. -/
def liar : CAConf lib := { caConf with caType := 4, misbehaviorInterval := 2 }

example : (counters (0, 0) [.request at58, .finish at58 [], .request at59]).1 = 1 ∧
    deviation 4 2 (counters (0, 0) [.request at58, .finish at58 [], .request at59]).2 2 = .lie := by decide +kernel

example : at59.minute = at58.minute + 1 ∧ untouched at59.minute [.request at59, .finish at59 []] := ⟨rfl, by decide, trivial⟩

/-- An entry of logger L1. -/
def info : LoggerInfo := ⟨sth, ⟨some ⟨[go!"x"], 1⟩, go!"k", go!"C1", go!"L1"⟩⟩

theorem info_plain : info.Plain := by
  refine ⟨⟨?_, ?_, ⟨by decide +kernel, ?_⟩, ?_, ?_, ⟨?_, ?_⟩, ?_, ?_, ?_, ?_, ?_⟩, ⟨?_, ?_, ?_⟩⟩
  all_goals first | (unfold Ascii; decide +kernel) | (intro q h; cases h; decide) | (intro q h; cases h)

/-- A pre-certificate in the pool of C1, without and with an entry. -/
def precert : Cert := (signCertificate xlib lib.sha256 (genratePreCert xlib 5 (go!"C1") (go!"Testing Dummy 1") false).1 caRoot
  (go!"k")).toPrecert xlib

example : precert.hasExt ∧ (precert.parseExt xlib).loggers = [] ∧ ((precert.updateExt xlib info).parseExt xlib).loggers = [info] ∧
    (((precert.updateExt xlib info).updateExt xlib info).parseExt xlib).loggers = [info] := by
  refine ⟨⟨_, List.mem_singleton.2 rfl, rfl⟩, ?_, ?_, ?_⟩ <;> decide +kernel

end Ref
end CTng
