import Verif.Model.Merkle
/- Properties C61-C63 of the Merkle tree. -/
set_option autoImplicit false

namespace CTng
variable {h : Str → Str}

/-! ### Specification: the strings hashed -/

/-- The strings hashed when the levels above `l` are built. -/
def pairInputs (h : Str → Str) : List Str → List Str
  | [] => []
  | [a] => [a ++ a]
  | a :: b :: t => (a ++ b) :: pairInputs h t

def levelInputs (h : Str → Str) : Nat → List Str → List Str
  | 0, _ => []
  | d + 1, l => pairInputs h l ++ levelInputs h d (levelUp h l)

/-- All strings hashed when the tree over `blocks` is built: the blocks and the inner nodes. -/
def treeInputs (h : Str → Str) (blocks : List Str) : List Str :=
  blocks ++ levelInputs h (merkleDepth blocks.length) (blocks.map h)

/-- The strings hashed while a proof is folded from `x`. -/
def foldInputs (h : Str → Str) : Str → List Str → Nat → List Str
  | _, [], _ => []
  | x, s :: t, p =>
    if p % 2 = 1 then (x ++ s) :: foldInputs h (h (x ++ s)) t (p / 2) else (s ++ x) :: foldInputs h (h (s ++ x)) t (p / 2)

/-- All strings hashed when a proof is verified for `block`. -/
def verifyInputs (h : Str → Str) (block : Str) (p : MProof) : List Str :=
  block :: foldInputs h (h block) p.siblings p.path

/-- Two different strings, one from each list, with the same hash: an explicit collision. -/
def CollisionIn (h : Str → Str) (A B : List Str) : Prop := ∃ x ∈ A, ∃ y ∈ B, x ≠ y ∧ h x = h y

theorem CollisionIn.mono {A B A' B' : List Str} (hA : ∀ x ∈ A, x ∈ A') (hB : ∀ x ∈ B, x ∈ B')
    (hc : CollisionIn h A B) : CollisionIn h A' B' := by
  obtain ⟨x, hx, y, hy, hne, he⟩ := hc
  exact ⟨x, hA x hx, y, hB y hy, hne, he⟩

/-! ### Levels -/

theorem levelUp_length (l : List Str) : (levelUp h l).length = (l.length + 1) / 2 := by
  induction l using levelUp.induct with
  | case1 => rfl
  | case2 a => simp [levelUp]
  | case3 a b t ih => simp only [levelUp, List.length_cons, ih]; omega

theorem levelUp_get (l : List Str) (j : Nat) (hj : j < (l.length + 1) / 2) :
    (levelUp h l)[j]? = some (h ((l[2 * j]?).getD [] ++
      (if 2 * j + 1 < l.length then (l[2 * j + 1]?).getD [] else (l[2 * j]?).getD []))) := by
  induction l using levelUp.induct generalizing j with
  | case1 => simp at hj
  | case2 a =>
    simp only [List.length_cons, List.length_nil] at hj
    have : j = 0 := by omega
    subst this; rfl
  | case3 a b t ih =>
    cases j with
    | zero => simp [levelUp]
    | succ j =>
      simp only [List.length_cons] at hj
      rw [levelUp, List.getElem?_cons_succ, ih _ (by omega)]
      have e1 : 2 * (j + 1) = 2 * j + 1 + 1 := by omega
      have e2 : (2 * j + 1 + 1 + 1 < (a :: b :: t).length) ↔ (2 * j + 1 < t.length) := by
        simp only [List.length_cons]; omega
      rw [e1, List.getElem?_cons_succ, List.getElem?_cons_succ]
      simp only [e2, List.getElem?_cons_succ]

theorem pairInputs_map (l : List Str) : (pairInputs h l).map h = levelUp h l := by
  induction l using levelUp.induct with
  | case1 => rfl
  | case2 a => rfl
  | case3 a b t ih => simp [pairInputs, levelUp, ih]

theorem pairInputs_mem (l : List Str) (x : Str) (hx : x ∈ pairInputs h l) : ∃ a ∈ l, ∃ b ∈ l, x = a ++ b := by
  induction l using levelUp.induct with
  | case1 => cases hx
  | case2 a => simp [pairInputs] at hx; exact ⟨a, by simp, a, by simp, hx⟩
  | case3 a b t ih =>
    simp only [pairInputs, List.mem_cons] at hx
    rcases hx with hx | hx
    · exact ⟨a, by simp, b, by simp, hx⟩
    · obtain ⟨c, hc, d, hd, e⟩ := ih hx
      exact ⟨c, by simp [hc], d, by simp [hd], e⟩

theorem merkleDepth_spec (n : Nat) : n ≤ 2 ^ merkleDepth n := by
  unfold merkleDepth
  split
  · simp; omega
  · rename_i hn
    have := Nat.lt_log2_self (n := n - 1)
    omega

theorem levelUp_le {d : Nat} {l : List Str} (hl : l.length ≤ 2 ^ (d + 1)) : (levelUp h l).length ≤ 2 ^ d := by
  rw [levelUp_length]
  rw [Nat.pow_succ] at hl
  omega

/-! ### Completeness (C61) -/

theorem foldProof_proofOf : ∀ (d : Nat) (l : List Str) (i : Nat), i < l.length → l.length ≤ 2 ^ d →
    foldProof h ((l[i]?).getD []) (proofOf h d l i).siblings (proofOf h d l i).path = rootOf h d l := by
  intro d
  induction d with
  | zero =>
    intro l i hi hl
    have : i = 0 := by simp at hl; omega
    subst this; rfl
  | succ d ih =>
    intro l i hi hl
    have hup : i / 2 < (levelUp h l).length := by rw [levelUp_length]; omega
    have := ih (levelUp h l) (i / 2) hup (levelUp_le hl)
    have hg := levelUp_get (h := h) l (i / 2) (by omega)
    rw [hg, Option.getD_some] at this
    rw [rootOf, ← this]
    by_cases he : i % 2 = 0
    · have e1 : 2 * (i / 2) = i := by omega
      rw [e1]
      simp only [proofOf, he, if_true, foldProof]
      have e2 : (2 * (proofOf h d (levelUp h l) (i / 2)).path + 1) % 2 = 1 := by omega
      have e3 : (2 * (proofOf h d (levelUp h l) (i / 2)).path + 1) / 2 = (proofOf h d (levelUp h l) (i / 2)).path := by omega
      rw [if_pos e2, e3]
    · have e1 : 2 * (i / 2) + 1 = i := by omega
      have e0 : 2 * (i / 2) = i - 1 := by omega
      rw [e1, e0, if_pos hi]
      simp only [proofOf, he, if_false, foldProof]
      have e2 : ¬ (2 * (proofOf h d (levelUp h l) (i / 2)).path) % 2 = 1 := by omega
      have e3 : (2 * (proofOf h d (levelUp h l) (i / 2)).path) / 2 = (proofOf h d (levelUp h l) (i / 2)).path := by omega
      rw [if_neg e2, e3]

/-- C61: for every list of at least two blocks and every hash function, there is one proof per block and each verifies
against the root for its block. -/
theorem C61_proofs_complete (h : Str → Str) (blocks : List Str) (hn : 2 ≤ blocks.length) :
    ∃ t, merkleNew h blocks = some t ∧ t.proofs.length = blocks.length ∧
      ∀ (i : Nat) b, blocks[i]? = some b → merkleVerify h b t.proofs[i]? t.root = true := by
  refine ⟨_, by unfold merkleNew; rw [if_neg (by omega)], by simp, ?_⟩
  intro i b hb
  have hi : i < blocks.length := (List.getElem?_eq_some_iff.1 hb).1
  simp only [List.getElem?_map, List.getElem?_range hi, Option.map_some, merkleVerify, decide_eq_true_eq]
  have := foldProof_proofOf (h := h) (merkleDepth blocks.length) (blocks.map h) i (by simpa using hi)
    (by simpa using merkleDepth_spec blocks.length)
  rw [List.getElem?_map, hb] at this
  exact this

/-- The siblings of a generated proof are as many as the depth. -/
theorem proofOf_length : ∀ (d : Nat) (l : List Str) (i : Nat), (proofOf h d l i).siblings.length = d := by
  intro d
  induction d with
  | zero => intro l i; rfl
  | succ d ih => intro l i; simp only [proofOf]; split <;> simp [ih]

/-- C61: generated proofs have the depth of the tree. -/
theorem C61_proof_depth (h : Str → Str) (blocks : List Str) (t : MTree) (ht : merkleNew h blocks = some t) (p : MProof)
    (hp : p ∈ t.proofs) : p.siblings.length = merkleDepth blocks.length := by
  unfold merkleNew at ht
  split at ht
  · cases ht
  · cases ht
    obtain ⟨i, _, rfl⟩ := List.mem_map.1 hp
    exact proofOf_length _ _ _

/-! ### Soundness (C62) -/

theorem foldProof_sound (n : Nat) (hlen : ∀ x, (h x).length = n) : ∀ (d : Nat) (l : List Str) (x : Str) (ss : List Str) (p : Nat),
    l ≠ [] → l.length ≤ 2 ^ d → (∀ y ∈ l, y.length = n) → x.length = n → ss.length = d →
    foldProof h x ss p = rootOf h d l →
    x ∈ l ∨ CollisionIn h (foldInputs h x ss p) (levelInputs h d l) := by
  intro d
  induction d with
  | zero =>
    intro l x ss p hne hl _ _ hs he
    left
    have : ss = [] := List.eq_nil_of_length_eq_zero hs
    subst this
    cases l with
    | nil => exact absurd rfl hne
    | cons a t =>
      simp only [foldProof, rootOf, List.getElem?_cons_zero, Option.getD_some] at he
      simp [he]
  | succ d ih =>
    intro l x ss p hne hl hll hx hs he
    cases ss with
    | nil => simp at hs
    | cons s t =>
      have hup : (levelUp h l) ≠ [] := by
        intro e
        have := levelUp_length (h := h) l
        rw [e] at this
        cases l with
        | nil => exact hne rfl
        | cons a t => simp at this; omega
      have hul : ∀ y ∈ levelUp h l, y.length = n := by
        intro y hy
        rw [← pairInputs_map] at hy
        obtain ⟨z, _, rfl⟩ := List.mem_map.1 hy
        exact hlen z
      simp only [List.length_cons, Nat.add_right_cancel_iff] at hs
      -- the string hashed at this level
      have main : ∀ w : Str, (w = x ++ s ∨ w = s ++ x) → (∀ a b : Str, a.length = n → b.length = n → w = a ++ b → x = a ∨ x = b) →
          foldProof h (h w) t (p / 2) = rootOf h d (levelUp h l) →
          (∀ z, z = w ∨ z ∈ foldInputs h (h w) t (p / 2) → z ∈ foldInputs h x (s :: t) p) →
          x ∈ l ∨ CollisionIn h (foldInputs h x (s :: t) p) (levelInputs h (d + 1) l) := by
        intro w _ hsplit hf hin
        rcases ih (levelUp h l) (h w) t (p / 2) hup (levelUp_le hl) hul (hlen w) hs hf with hm | hc
        · rw [← pairInputs_map] at hm
          obtain ⟨z, hz, hzw⟩ := List.mem_map.1 hm
          by_cases e : w = z
          · left
            obtain ⟨a, ha, b, hb, eab⟩ := pairInputs_mem l z hz
            rcases hsplit a b (hll a ha) (hll b hb) (e.trans eab) with rfl | rfl
            · exact ha
            · exact hb
          · right
            exact ⟨w, hin w (Or.inl rfl), z, by simp [levelInputs, hz], e, hzw.symm⟩
        · right
          refine hc.mono (fun z hz => hin z (Or.inr hz)) ?_
          intro z hz
          simp [levelInputs, hz]
      rw [rootOf] at he
      simp only [foldProof] at he
      split at he
      · rename_i hp
        refine main (x ++ s) (Or.inl rfl) ?_ he ?_
        · intro a b ha hb e
          left
          exact (List.append_inj e (by omega)).1
        · intro z hz
          simp only [foldInputs, if_pos hp, List.mem_cons]
          exact hz
      · rename_i hp
        refine main (s ++ x) (Or.inr rfl) ?_ he ?_
        · intro a b ha hb e
          right
          exact (List.append_inj' e (by omega)).2
        · intro z hz
          simp only [foldInputs, if_neg hp, List.mem_cons]
          exact hz

/-- C62: for every hash of fixed output length, if a proof of the tree's depth verifies against the root for some data,
the data is one of the blocks, or the verification and the tree construction hashed two different strings to the same
value (an explicit collision). -/
theorem C62_proofs_sound (h : Str → Str) (n : Nat) (hlen : ∀ x, (h x).length = n) (blocks : List Str) (t : MTree)
    (ht : merkleNew h blocks = some t) (data : Str) (p : MProof)
    (hp : p.siblings.length = merkleDepth blocks.length) (hv : merkleVerify h data (some p) t.root = true) :
    data ∈ blocks ∨ CollisionIn h (verifyInputs h data p) (treeInputs h blocks) := by
  unfold merkleNew at ht
  split at ht
  · cases ht
  · rename_i hb
    cases ht
    simp only [merkleVerify, decide_eq_true_eq] at hv
    rcases foldProof_sound n hlen (merkleDepth blocks.length) (blocks.map h) (h data) p.siblings p.path
        (by intro e; simp at e; subst e; simp at hb) (by simpa using merkleDepth_spec blocks.length)
        (by intro y hy; obtain ⟨z, _, rfl⟩ := List.mem_map.1 hy; exact hlen z) (hlen data) hp hv with hm | hc
    · obtain ⟨b, hb, e⟩ := List.mem_map.1 hm
      by_cases hdb : data = b
      · left; exact hdb ▸ hb
      · right
        exact ⟨data, by simp [verifyInputs], b, by simp [treeInputs, hb], hdb, e.symm⟩
    · right
      refine hc.mono ?_ ?_
      · intro z hz; simp [verifyInputs, hz]
      · intro z hz; simp [treeInputs, hz]

/-- The depth condition of C62 is needed, and `VerifyPOI` does not check it: leaves and inner nodes are hashed alike, so
an inner node of every four-block tree verifies as if it were a logged block. -/
theorem C62_violated_without_depth_check (h : Str → Str) (a b c d : Str) :
    ∃ t, merkleNew h [a, b, c, d] = some t ∧
      merkleVerify h (h a ++ h b) (some ⟨[h (h c ++ h d)], 1⟩) t.root = true :=
  ⟨_, rfl, by simp [merkleVerify, foldProof, merkleDepth, rootOf, levelUp, Nat.log2]⟩

/-! ### Binding (C63) -/

theorem map_eq_or_collision : ∀ (A B : List Str), A.map h = B.map h → A = B ∨ CollisionIn h A B := by
  intro A
  induction A with
  | nil => intro B e; cases B with
    | nil => left; rfl
    | cons b t => simp at e
  | cons a t ih =>
    intro B e
    cases B with
    | nil => simp at e
    | cons b u =>
      simp only [List.map_cons, List.cons.injEq] at e
      by_cases hab : a = b
      · rcases ih u e.2 with h1 | h1
        · left; rw [hab, h1]
        · right; exact h1.mono (by intro x hx; simp [hx]) (by intro x hx; simp [hx])
      · right; exact ⟨a, by simp, b, by simp, hab, e.1⟩

theorem pairInputs_inj (n : Nat) : ∀ (l m : List Str), l.length = m.length → (∀ y ∈ l, y.length = n) → (∀ y ∈ m, y.length = n) →
    pairInputs h l = pairInputs h m → l = m := by
  intro l
  induction l using levelUp.induct with
  | case1 => intro m e _ _ _; exact (List.eq_nil_of_length_eq_zero e.symm).symm
  | case2 a =>
    intro m e hl hm he
    match m, e with
    | [b], _ =>
      simp only [pairInputs, List.cons.injEq, and_true] at he
      have := (List.append_inj he (by rw [hl a (by simp), hm b (by simp)])).1
      rw [this]
  | case3 a b t ih =>
    intro m e hl hm he
    match m, e with
    | c :: d :: u, e =>
      simp only [pairInputs, List.cons.injEq] at he
      obtain ⟨h1, h2⟩ := he
      obtain ⟨h3, h4⟩ := List.append_inj h1 (by rw [hl a (by simp), hm c (by simp)])
      simp only [List.length_cons] at e
      rw [h3, h4, ih u (by omega) (fun y hy => hl y (by simp [hy])) (fun y hy => hm y (by simp [hy])) h2]
    | [_], e => simp at e

theorem rootOf_binding (n : Nat) (hlen : ∀ x, (h x).length = n) : ∀ (d : Nat) (l m : List Str), l.length = m.length → l.length ≤ 2 ^ d →
    (∀ y ∈ l, y.length = n) → (∀ y ∈ m, y.length = n) → rootOf h d l = rootOf h d m →
    l = m ∨ CollisionIn h (levelInputs h d l) (levelInputs h d m) := by
  intro d
  induction d with
  | zero =>
    intro l m e hl _ _ he
    left
    simp at hl
    cases l with
    | nil => exact (List.eq_nil_of_length_eq_zero e.symm).symm
    | cons a t =>
      have ht : t = [] := by simpa using hl
      subst ht
      match m, e with
      | [b], _ => simpa [rootOf] using he
  | succ d ih =>
    intro l m e hl hll hml he
    have hu : ∀ (k : List Str), ∀ y ∈ levelUp h k, y.length = n := by
      intro k y hy
      rw [← pairInputs_map] at hy
      obtain ⟨z, _, rfl⟩ := List.mem_map.1 hy
      exact hlen z
    rcases ih (levelUp h l) (levelUp h m) (by rw [levelUp_length, levelUp_length, e]) (levelUp_le hl) (hu l) (hu m) he with h1 | h1
    · rw [← pairInputs_map, ← pairInputs_map] at h1
      rcases map_eq_or_collision _ _ h1 with h2 | h2
      · left; exact pairInputs_inj n l m e hll hml h2
      · right; exact h2.mono (by intro x hx; simp [levelInputs, hx]) (by intro x hx; simp [levelInputs, hx])
    · right; exact h1.mono (by intro x hx; simp [levelInputs, hx]) (by intro x hx; simp [levelInputs, hx])

/-- C63, what holds: the root together with the number of blocks binds the blocks. Two lists of the same length with the
same root are equal, or the two constructions exhibit a collision. Missing: lists of different lengths (violated below),
and what a block says about its certificate (only the subject, see `C63_violated_same_subject`). -/
theorem C63_root_and_size_bind_partial (h : Str → Str) (n : Nat) (hlen : ∀ x, (h x).length = n) (A B : List Str) (s t : MTree)
    (hs : merkleNew h A = some s) (ht : merkleNew h B = some t) (hl : A.length = B.length) (hr : s.root = t.root) :
    A = B ∨ CollisionIn h (treeInputs h A) (treeInputs h B) := by
  unfold merkleNew at hs ht
  split at hs
  · cases hs
  · split at ht
    · cases ht
    · cases hs; cases ht
      simp only at hr
      rw [← hl] at hr
      rcases rootOf_binding n hlen (merkleDepth A.length) (A.map h) (B.map h) (by simpa using hl)
          (by simpa using merkleDepth_spec A.length)
          (by intro y hy; obtain ⟨z, _, rfl⟩ := List.mem_map.1 hy; exact hlen z)
          (by intro y hy; obtain ⟨z, _, rfl⟩ := List.mem_map.1 hy; exact hlen z) hr with h1 | h1
      · rcases map_eq_or_collision _ _ h1 with h2 | h2
        · left; exact h2
        · right; exact h2.mono (by intro x hx; simp [treeInputs, hx]) (by intro x hx; simp [treeInputs, hx])
      · right; exact h1.mono (by intro x hx; simp [treeInputs, hx]) (by intro x hx; simp [treeInputs, ← hl, hx])

theorem foldProof_inj : ∀ (ss : List Str) (x y : Str) (p : Nat), foldProof h x ss p = foldProof h y ss p →
    x = y ∨ CollisionIn h (foldInputs h x ss p) (foldInputs h y ss p) := by
  intro ss
  induction ss with
  | nil => intro x y p e; left; exact e
  | cons s t ih =>
    intro x y p e
    simp only [foldProof] at e
    by_cases hp : p % 2 = 1
    · rw [if_pos hp, if_pos hp] at e
      simp only [foldInputs, if_pos hp]
      rcases ih _ _ _ e with h1 | h1
      · by_cases h2 : x ++ s = y ++ s
        · left; exact List.append_cancel_right h2
        · right; exact ⟨_, by simp, _, by simp, h2, h1⟩
      · right; exact h1.mono (by intro z hz; simp [hz]) (by intro z hz; simp [hz])
    · rw [if_neg hp, if_neg hp] at e
      simp only [foldInputs, if_neg hp]
      rcases ih _ _ _ e with h1 | h1
      · by_cases h2 : s ++ x = s ++ y
        · left; exact List.append_cancel_left h2
        · right; exact ⟨_, by simp, _, by simp, h2, h1⟩
      · right; exact h1.mono (by intro z hz; simp [hz]) (by intro z hz; simp [hz])

/-- C63, what holds: one proof does not verify against one root for two different blocks, or verification exhibits a
collision. -/
theorem C63_proof_binds_block_partial (h : Str → Str) (root : Str) (p : MProof) (a b : Str)
    (ha : merkleVerify h a (some p) root = true) (hb : merkleVerify h b (some p) root = true) :
    a = b ∨ CollisionIn h (verifyInputs h a p) (verifyInputs h b p) := by
  simp only [merkleVerify, decide_eq_true_eq] at ha hb
  rcases foldProof_inj p.siblings (h a) (h b) p.path (ha.trans hb.symm) with h1 | h1
  · by_cases e : a = b
    · exact Or.inl e
    · exact Or.inr ⟨a, by simp [verifyInputs], b, by simp [verifyInputs], e, h1⟩
  · exact Or.inr (h1.mono (by intro z hz; simp [verifyInputs, hz]) (by intro z hz; simp [verifyInputs, hz]))

theorem levelUp_dup (l : List Str) (a : Str) (he : l.length % 2 = 0) :
    levelUp h (l ++ [a]) = levelUp h (l ++ [a, a]) := by
  induction l using levelUp.induct with
  | case1 => rfl
  | case2 b => simp at he
  | case3 b c t ih =>
    simp only [List.length_cons] at he
    simp only [List.cons_append, levelUp]
    rw [ih (by omega)]

theorem merkleDepth_odd (m : Nat) (hm : 1 ≤ m) : merkleDepth (2 * m + 1) = merkleDepth (2 * m + 2) := by
  have h1 : ∀ k : Nat, 1 ≤ k → Nat.log2 (2 * k) = Nat.log2 k + 1 := by
    intro k hk
    rw [Nat.log2_def, if_pos (by omega)]
    congr 2; omega
  have h2 : ∀ k : Nat, 1 ≤ k → Nat.log2 (2 * k + 1) = Nat.log2 k + 1 := by
    intro k hk
    rw [Nat.log2_def, if_pos (by omega)]
    congr 2; omega
  unfold merkleDepth
  rw [if_neg (by omega), if_neg (by omega)]
  have e1 : 2 * m + 1 - 1 = 2 * m := by omega
  have e2 : 2 * m + 2 - 1 = 2 * m + 1 := by omega
  rw [e1, e2, h1 m hm, h2 m hm]

theorem rootOf_succ (h : Str → Str) (d : Nat) (l : List Str) : rootOf h (d + 1) l = rootOf h d (levelUp h l) := rfl

/-- C63 violated, for every hash: an odd list of at least three blocks has the same root as the list with its last block
repeated. The root does not bind the number of certificates. -/
theorem C63_violated_last_block_repeated (h : Str → Str) (l : List Str) (a : Str) (hl : 2 ≤ l.length) (he : l.length % 2 = 0) :
    ∃ s t, merkleNew h (l ++ [a]) = some s ∧ merkleNew h (l ++ [a, a]) = some t ∧ s.root = t.root := by
  refine ⟨_, _, by unfold merkleNew; rw [if_neg (by simp; intro e; subst e; simp at hl)], by unfold merkleNew; rw [if_neg (by simp)], ?_⟩
  obtain ⟨m, hm⟩ : ∃ m, l.length = 2 * m := ⟨l.length / 2, by omega⟩
  have e1 : (l ++ [a]).length = 2 * m + 1 := by simp [hm]
  have e2 : (l ++ [a, a]).length = 2 * m + 2 := by simp [hm]
  show rootOf h (merkleDepth (l ++ [a]).length) _ = rootOf h (merkleDepth (l ++ [a, a]).length) _
  rw [e1, e2, ← merkleDepth_odd m (by omega)]
  obtain ⟨d, hd⟩ : ∃ d, merkleDepth (2 * m + 1) = d + 1 := by
    refine ⟨Nat.log2 (2 * m), ?_⟩
    unfold merkleDepth
    rw [if_neg (by omega)]
    simp
  rw [hd, rootOf_succ, rootOf_succ]
  simp only [List.map_append, List.map_cons, List.map_nil]
  rw [levelUp_dup _ _ (by simpa using he)]

/-- C63 violated, for every hash: a list of two blocks can have the root of a list of four. -/
theorem C63_violated_no_domain_separation (h : Str → Str) (a b c d : Str) :
    ∃ s t, merkleNew h [a, b, c, d] = some s ∧ merkleNew h [h a ++ h b, h c ++ h d] = some t ∧ s.root = t.root :=
  ⟨_, _, rfl, rfl, by simp [merkleDepth, rootOf, levelUp, Nat.log2]⟩

/-! ### Non-trivial instances -/

/-- A toy hash with outputs of length two. -/
def Ref.hash2 (s : Str) : Str := [s.foldl (fun a b => a * 31 + b + 1) 7, s.foldl (fun a b => a * 17 + b + 3) 1]

example : ∀ x, (Ref.hash2 x).length = 2 := fun _ => rfl

example : ∃ t, merkleNew Ref.hash2 [go!"a", go!"b", go!"c"] = some t ∧ t.proofs.length = 3 ∧
    merkleVerify Ref.hash2 (go!"c") t.proofs[2]? t.root = true ∧
    merkleVerify Ref.hash2 (go!"d") t.proofs[2]? t.root = false := ⟨_, rfl, by decide +kernel, by decide +kernel, by decide +kernel⟩

end CTng
