import Verif.Model.X509
/- Properties C66 and C67 of the certificate pool. -/
set_option autoImplicit false

namespace CTng

/-! ### Specification: a pool as a list of entries -/

/-- An entry remembers the key id and the subject under which its certificate was added; the certificate may be replaced
later. -/
structure PEntry where
  ski : Str
  name : Str
  cert : Cert

/-- Operations on a pool. -/
inductive POp where
  | add (c : Cert)
  | update (k : Str) (c : Cert)

/-- Replace the certificate of the first entry with key id `k`. -/
def replaceFirst (k : Str) (c : Cert) : List PEntry → List PEntry
  | [] => []
  | e :: t => if e.ski = k then { e with cert := c } :: t else e :: replaceFirst k c t

/-- What an operation should do. -/
def specOp (l : List PEntry) : POp → List PEntry
  | .add c => if l.any (fun e => decide (e.name = c.rawSubject) && decide (e.cert.raw = c.raw)) then l
              else l ++ [⟨c.subjectKeyId, c.rawSubject, c⟩]
  | .update k c => if k = [] then l else replaceFirst k c l

def specRun (ops : List POp) : List PEntry := ops.foldl specOp []

/-- The first entry added with this key id. -/
def specLookup (l : List PEntry) (k : Str) : Option Cert :=
  if k = [] then none else (l.find? fun e => e.ski = k).map (·.cert)

/-- The code: operations in sequence, stopping at a panic. -/
def poolOp (s : CertPool) : POp → CertPool.Res CertPool
  | .add c => s.addCert c
  | .update k c => s.updateBySKI k c

def poolRun : CertPool → List POp → CertPool.Res CertPool
  | s, [] => .ok s
  | s, o :: t =>
    match poolOp s o with
    | .panic => .panic
    | .ok s' => poolRun s' t

/-! ### Refinement -/

/-- Positions of the entries satisfying `p`, counted from `n`. -/
def positions (p : PEntry → Bool) : Nat → List PEntry → List Nat
  | _, [] => []
  | n, e :: t => if p e then n :: positions p (n + 1) t else positions p (n + 1) t

theorem positions_append (p : PEntry → Bool) (l : List PEntry) (e : PEntry) : ∀ n,
    positions p n (l ++ [e]) = positions p n l ++ (if p e then [n + l.length] else []) := by
  induction l with
  | nil => intro n; simp [positions]
  | cons a t ih =>
    intro n
    simp only [List.cons_append, positions, ih]
    have : n + 1 + t.length = n + (a :: t).length := by simp; omega
    rw [this]
    split <;> simp

theorem positions_lt (p : PEntry → Bool) (l : List PEntry) : ∀ n, ∀ i ∈ positions p n l, n ≤ i ∧ i < n + l.length := by
  induction l with
  | nil => intro n i hi; simp [positions] at hi
  | cons a t ih =>
    intro n i hi
    simp only [positions] at hi
    have : i = n ∨ i ∈ positions p (n + 1) t := by
      split at hi
      · simpa using hi
      · exact Or.inr hi
    simp only [List.length_cons]
    rcases this with rfl | h
    · omega
    · have := ih _ _ h; omega

/-- The pool represents the entry list. -/
structure Represents (s : CertPool) (l : List PEntry) : Prop where
  certs : s.certs = l.map (·.cert)
  ski : ∀ k, k ≠ [] → CertPool.idx s.bySubjectKeyId k = positions (fun e => e.ski = k) 0 l
  ski_empty : CertPool.idx s.bySubjectKeyId [] = []
  name : ∀ k, CertPool.idx s.byName k = positions (fun e => e.name = k) 0 l

theorem containsLoop_positions (c : Cert) (k : Str) : ∀ (l pre : List PEntry),
    CertPool.containsLoop ((pre ++ l).map (·.cert)) c (positions (fun e => e.name = k) pre.length l) =
      .ok (l.any (fun e => decide (e.name = k) && decide (e.cert.raw = c.raw))) := by
  intro l
  induction l with
  | nil => intro pre; rfl
  | cons e t ih =>
    intro pre
    have := ih (pre ++ [e])
    simp only [List.append_assoc, List.cons_append, List.nil_append, List.length_append, List.length_cons, List.length_nil,
      Nat.zero_add] at this
    simp only [positions, List.any_cons]
    by_cases hn : e.name = k
    · simp only [hn, decide_true, if_true, Bool.true_and]
      have hg : ((pre ++ e :: t).map (·.cert))[pre.length]? = some e.cert := by simp
      simp only [CertPool.containsLoop, hg, Cert.equal]
      by_cases hr : e.cert.raw = c.raw
      · simp [hr]
      · simp only [hr, decide_false, Bool.false_eq_true, if_false, Bool.false_or]
        exact this
    · simp only [hn, decide_false, Bool.false_eq_true, if_false, Bool.false_and, Bool.false_or]
      exact this

theorem contains_spec {s : CertPool} {l : List PEntry} (h : Represents s l) (c : Cert) :
    s.contains c = .ok (l.any (fun e => decide (e.name = c.rawSubject) && decide (e.cert.raw = c.raw))) := by
  rw [CertPool.contains, h.certs, h.name]
  exact containsLoop_positions c c.rawSubject l []

theorem positions_replaceFirst (p : PEntry → Bool) (hp : ∀ e d, p { e with cert := d } = p e) (k : Str) (c : Cert) (l : List PEntry) :
    ∀ n, positions p n (replaceFirst k c l) = positions p n l := by
  induction l with
  | nil => intro n; rfl
  | cons e t ih =>
    intro n
    simp only [replaceFirst]
    split
    · simp only [positions, hp]
    · simp only [positions, ih]

theorem replaceFirst_eq_self (k : Str) (c : Cert) (l : List PEntry) : (∀ n, positions (fun e => e.ski = k) n l = []) →
    replaceFirst k c l = l := by
  induction l with
  | nil => intro _; rfl
  | cons e t ih =>
    intro h
    by_cases he : e.ski = k
    · have := h 0; simp [positions, he] at this
    · simp only [replaceFirst, he, if_false]
      rw [ih]
      intro n
      cases n with
      | zero =>
        have hz := h 0
        simp only [positions, he, decide_false, Bool.false_eq_true, if_false] at hz
        -- positions from 1 empty implies from 0 empty
        have key : ∀ (m : List PEntry) (a b : Nat), positions (fun e => e.ski = k) a m = [] → positions (fun e => e.ski = k) b m = [] := by
          intro m
          induction m with
          | nil => intro a b _; rfl
          | cons x u ihm =>
            intro a b hab
            simp only [positions] at hab ⊢
            split at hab
            · cases hab
            · rename_i hx
              rw [if_neg hx]; exact ihm _ _ hab
        exact key t _ _ hz
      | succ n =>
        have := h n
        simpa [positions, he] using this

theorem positions_shift (p : PEntry → Bool) (l : List PEntry) : ∀ n, positions p n l = (positions p 0 l).map (· + n) := by
  induction l with
  | nil => intro n; rfl
  | cons e t ih =>
    intro n
    simp only [positions]
    rw [ih (n + 1), ih (0 + 1)]
    split <;> simp [List.map_map, Function.comp_def, Nat.add_comm, Nat.add_left_comm]

theorem replaceFirst_map (k : Str) (c : Cert) (l : List PEntry) : ∀ i t, positions (fun e => e.ski = k) 0 l = i :: t →
    (replaceFirst k c l).map (·.cert) = (l.map (·.cert)).set i c := by
  induction l with
  | nil => intro i t h; simp [positions] at h
  | cons e u ih =>
    intro i t h
    simp only [positions] at h
    by_cases he : e.ski = k
    · simp only [he, decide_true, if_true, List.cons.injEq] at h
      rw [← h.1]
      simp [replaceFirst, he]
    · simp only [he, decide_false, Bool.false_eq_true, if_false] at h
      rw [positions_shift] at h
      cases hq : positions (fun e => e.ski = k) 0 u with
      | nil => rw [hq] at h; simp at h
      | cons j v =>
        rw [hq] at h
        simp only [List.map_cons, List.cons.injEq] at h
        rw [← h.1]
        simp only [replaceFirst, he, if_false, List.map_cons]
        rw [ih j v hq]
        rfl

theorem idx_set (m : GoMap Str (List Nat)) (k k' : Str) (v : List Nat) :
    CertPool.idx (m.set k v) k' = if k' = k then v else CertPool.idx m k' := by
  simp only [CertPool.idx, GoMap.get_set]
  split <;> rfl

theorem poolOp_spec {s : CertPool} {l : List PEntry} (h : Represents s l) (o : POp) :
    ∃ s', poolOp s o = .ok s' ∧ Represents s' (specOp l o) := by
  cases o with
  | add c =>
    simp only [poolOp, CertPool.addCert, contains_spec h, specOp]
    cases hc : l.any (fun e => decide (e.name = c.rawSubject) && decide (e.cert.raw = c.raw)) with
    | true => exact ⟨s, by simp, by simpa using h⟩
    | false =>
      refine ⟨_, rfl, ?_⟩
      have hlen : s.certs.length = l.length := by rw [h.certs]; simp
      simp only [Bool.false_eq_true, if_false]
      constructor
      · simp [h.certs]
      · intro k hk
        rw [positions_append]
        simp only [Nat.zero_add, ← hlen]
        by_cases hl : c.subjectKeyId.length > 0
        · simp only [hl, if_true, idx_set]
          by_cases e : k = c.subjectKeyId
          · subst e; simp [h.ski _ hk]
          · have e' : ¬ c.subjectKeyId = k := fun x => e x.symm
            simp [e, e', h.ski _ hk]
        · simp only [hl, if_false]
          have e' : ¬ c.subjectKeyId = k := by
            intro x; apply hk; rw [← x]
            exact List.eq_nil_of_length_eq_zero (by omega)
          simp [e', h.ski _ hk]
      · by_cases hl : c.subjectKeyId.length > 0
        · simp only [hl, if_true, idx_set]
          rw [if_neg, h.ski_empty]
          intro e
          rw [← e] at hl; simp at hl
        · simp only [hl, if_false]; exact h.ski_empty
      · intro k
        rw [positions_append, idx_set]
        simp only [Nat.zero_add, ← hlen]
        by_cases e : k = c.rawSubject
        · subst e; simp [h.name]
        · have e' : ¬ c.rawSubject = k := fun x => e x.symm
          simp [e, e', h.name]
  | update k c =>
    simp only [poolOp, CertPool.updateBySKI, specOp]
    by_cases hk : k = []
    · subst hk
      rw [h.ski_empty]
      exact ⟨s, rfl, by simpa using h⟩
    · rw [h.ski k hk]
      simp only [hk, if_false]
      cases hp : positions (fun e => e.ski = k) 0 l with
      | nil =>
        refine ⟨s, rfl, ?_⟩
        rw [replaceFirst_eq_self]
        · exact h
        · intro n; rw [positions_shift, hp]; rfl
      | cons i t =>
        have hi : i < s.certs.length := by
          have := positions_lt (fun e => e.ski = k) l 0 i (by rw [hp]; simp)
          rw [h.certs]; simp; omega
        simp only [hi, if_true]
        refine ⟨_, rfl, ?_⟩
        constructor
        · simp only; rw [replaceFirst_map k c l i t hp, h.certs]
        · intro k' hk'
          simp only
          rw [positions_replaceFirst (fun e => decide (e.ski = k')) (fun _ _ => rfl), h.ski k' hk']
        · exact h.ski_empty
        · intro k'
          simp only
          rw [positions_replaceFirst (fun e => decide (e.name = k')) (fun _ _ => rfl), h.name k']

theorem represents_new : Represents CertPool.new [] :=
  ⟨rfl, fun _ _ => rfl, rfl, fun _ => rfl⟩

theorem poolRun_spec : ∀ (ops : List POp) (s : CertPool) (l : List PEntry), Represents s l →
    ∃ s', poolRun s ops = .ok s' ∧ Represents s' (ops.foldl specOp l) := by
  intro ops
  induction ops with
  | nil => intro s l h; exact ⟨s, rfl, h⟩
  | cons o t ih =>
    intro s l h
    obtain ⟨s1, h1, h2⟩ := poolOp_spec h o
    obtain ⟨s2, h3, h4⟩ := ih s1 _ h2
    exact ⟨s2, by simp [poolRun, h1, h3], h4⟩

theorem getBySKI_spec {s : CertPool} {l : List PEntry} (h : Represents s l) (k : Str) :
    s.getBySKI k = .ok (specLookup l k) := by
  unfold CertPool.getBySKI specLookup
  by_cases hk : k = []
  · subst hk; rw [h.ski_empty]; rfl
  · rw [h.ski k hk, if_neg hk, h.certs]
    have key : ∀ (m pre : List PEntry),
        (match positions (fun e : PEntry => decide (e.ski = k)) pre.length m with
          | [] => CertPool.Res.ok none
          | i :: _ => match ((pre ++ m).map PEntry.cert)[i]? with
            | none => CertPool.Res.panic
            | some c => CertPool.Res.ok (some c)) = .ok ((m.find? fun e : PEntry => e.ski = k).map PEntry.cert) := by
      intro m
      induction m with
      | nil => intro pre; rfl
      | cons e t ih =>
        intro pre
        by_cases he : e.ski = k
        · have hg : ((pre ++ e :: t).map (·.cert))[pre.length]? = some e.cert := by simp
          simp only [positions, he, decide_true, if_true, hg, List.find?_cons_of_pos, Option.map_some]
        · have := ih (pre ++ [e])
          simp only [List.append_assoc, List.cons_append, List.nil_append, List.length_append, List.length_cons,
            List.length_nil, Nat.zero_add] at this
          simp only [positions, he, decide_false, Bool.false_eq_true, if_false, not_false_eq_true, List.find?_cons_of_neg]
          exact this
    exact key l []

/-- All indices stored in the two lookup tables point into the certificate list. -/
def IndicesValid (s : CertPool) : Prop :=
  (∀ k v, s.bySubjectKeyId.get k = some v → ∀ i ∈ v, i < s.certs.length) ∧
  (∀ k v, s.byName.get k = some v → ∀ i ∈ v, i < s.certs.length)

theorem Represents.valid {s : CertPool} {l : List PEntry} (h : Represents s l) : IndicesValid s := by
  have hlen : s.certs.length = l.length := by rw [h.certs]; simp
  constructor
  · intro k v hv i hi
    have e : CertPool.idx s.bySubjectKeyId k = v := by simp [CertPool.idx, hv]
    by_cases hk : k = []
    · subst hk; rw [h.ski_empty] at e; subst e; simp at hi
    · rw [h.ski k hk] at e; subst e
      have := positions_lt _ _ _ _ hi; omega
  · intro k v hv i hi
    have e : CertPool.idx s.byName k = v := by simp [CertPool.idx, hv]
    rw [h.name k] at e; subst e
    have := positions_lt _ _ _ _ hi; omega

/-- C66: every sequence of adds and updates runs without an out-of-range access, leaves all indices valid, and the pool
behaves as the entry list: lookup by key id gives the first certificate added with that key id, or what replaced it. -/
theorem C66_pool_refines_entries (ops : List POp) :
    ∃ s, poolRun .new ops = .ok s ∧ IndicesValid s ∧ s.certs = (specRun ops).map (·.cert) ∧
      ∀ k, s.getBySKI k = .ok (specLookup (specRun ops) k) := by
  obtain ⟨s, h1, h2⟩ := poolRun_spec ops .new [] represents_new
  exact ⟨s, h1, h2.valid, h2.certs, getBySKI_spec h2⟩

theorem specOp_lookup_add (l : List PEntry) (c : Cert) (k : Str) (d : Cert) (h : specLookup l k = some d) :
    specLookup (specOp l (.add c)) k = some d := by
  have hl : specOp l (.add c) = l ∨ ∃ e, specOp l (.add c) = l ++ [e] := by
    simp only [specOp]
    split
    · exact Or.inl rfl
    · exact Or.inr ⟨_, rfl⟩
  rcases hl with hl | ⟨e, hl⟩
  · rw [hl]; exact h
  · rw [hl]
    unfold specLookup at h ⊢
    by_cases hk : k = []
    · simp [hk] at h
    · rw [if_neg hk] at h ⊢
      rw [List.find?_append]
      cases hf : l.find? (fun e => decide (e.ski = k)) with
      | none => rw [hf] at h; simp at h
      | some e => rw [hf] at h; simpa using h

theorem specAdds_lookup (more : List Cert) (k : Str) (d : Cert) : ∀ l : List PEntry, specLookup l k = some d →
    specLookup ((more.map POp.add).foldl specOp l) k = some d := by
  induction more with
  | nil => intro l h; exact h
  | cons c t ih =>
    intro l h
    simp only [List.map_cons, List.foldl_cons]
    exact ih _ (specOp_lookup_add l c k d h)

/-- C66: later adds never change what a key id that is present resolves to. -/
theorem C66_first_wins (ops : List POp) (more : List Cert) (k : Str) (d : Cert) (s s' : CertPool)
    (hs : poolRun .new ops = .ok s) (hs' : poolRun .new (ops ++ more.map .add) = .ok s')
    (h : s.getBySKI k = .ok (some d)) : s'.getBySKI k = .ok (some d) := by
  obtain ⟨s1, h1, _, _, h3⟩ := C66_pool_refines_entries ops
  obtain ⟨s2, g1, _, _, g3⟩ := C66_pool_refines_entries (ops ++ more.map .add)
  rw [hs] at h1; cases h1
  rw [hs'] at g1; cases g1
  rw [h3] at h
  rw [g3]
  simp only [CertPool.Res.ok.injEq] at h ⊢
  unfold specRun at *
  rw [List.foldl_append]
  exact specAdds_lookup more k d _ h

theorem addCert_spec (ops : List POp) (s : CertPool) (c : Cert) (hs : poolRun .new ops = .ok s) :
    ∃ s', s.addCert c = .ok s' ∧ s'.certs = ((specOp (specRun ops) (.add c))).map (·.cert) := by
  obtain ⟨s1, h1, h2⟩ := poolRun_spec ops .new [] represents_new
  rw [hs] at h1; cases h1
  obtain ⟨s2, h3, h4⟩ := poolOp_spec h2 (.add c)
  exact ⟨s2, h3, h4.certs⟩

/-! ### Duplicates (C67) -/

/-- Keep the first certificate of each (subject, DER) pair. -/
def firsts : List Cert → List Cert → List Cert
  | acc, [] => acc
  | acc, c :: t =>
    if acc.any (fun d => decide (d.rawSubject = c.rawSubject) && decide (d.raw = c.raw)) then firsts acc t
    else firsts (acc ++ [c]) t

theorem specRun_adds (cs : List Cert) : ∀ l : List PEntry, (∀ e ∈ l, e.name = e.cert.rawSubject) →
    ((cs.map POp.add).foldl specOp l).map (·.cert) = firsts (l.map (·.cert)) cs := by
  induction cs with
  | nil => intro l _; rfl
  | cons c t ih =>
    intro l hl
    simp only [List.map_cons, List.foldl_cons, firsts]
    have : (l.map (·.cert)).any (fun d => decide (d.rawSubject = c.rawSubject) && decide (d.raw = c.raw)) =
        l.any (fun e => decide (e.name = c.rawSubject) && decide (e.cert.raw = c.raw)) := by
      clear ih
      induction l with
      | nil => rfl
      | cons e u ihl =>
        simp only [List.map_cons, List.any_cons, hl e (by simp)]
        rw [ihl (fun e he => hl e (by simp [he]))]
    rw [this]
    simp only [specOp]
    split
    · exact ih l hl
    · rw [ih]
      · simp
      · intro e he
        rcases List.mem_append.1 he with he | he
        · exact hl e he
        · simp at he; subst he; rfl

/-- C67, exactly what the pool keeps: of every added certificate the first one with its subject and its DER bytes. -/
theorem C67_pool_contents_partial (cs : List Cert) :
    ∃ s, poolRun .new (cs.map .add) = .ok s ∧ s.certs = firsts [] cs := by
  obtain ⟨s, h1, h2⟩ := poolRun_spec (cs.map .add) .new [] represents_new
  exact ⟨s, h1, by rw [h2.certs]; exact specRun_adds cs [] (by simp)⟩

theorem firsts_mem (cs : List Cert) : ∀ acc, (∀ a ∈ acc, a ∈ firsts acc cs) ∧
    (∀ c ∈ cs, ∃ d ∈ firsts acc cs, d.rawSubject = c.rawSubject ∧ d.raw = c.raw) ∧
    (∀ d ∈ firsts acc cs, d ∈ acc ∨ d ∈ cs) := by
  induction cs with
  | nil => intro acc; exact ⟨fun a h => h, by simp, fun d h => Or.inl h⟩
  | cons c t ih =>
    intro acc
    simp only [firsts]
    split
    · rename_i hany
      obtain ⟨h1, h2, h3⟩ := ih acc
      refine ⟨h1, ?_, ?_⟩
      · intro x hx
        rcases List.mem_cons.1 hx with rfl | hx
        · simp only [List.any_eq_true, Bool.and_eq_true, decide_eq_true_eq] at hany
          obtain ⟨d, hd, e⟩ := hany
          exact ⟨d, h1 d hd, e⟩
        · exact h2 x hx
      · intro d hd
        rcases h3 d hd with h | h
        · exact Or.inl h
        · exact Or.inr (by simp [h])
    · obtain ⟨h1, h2, h3⟩ := ih (acc ++ [c])
      refine ⟨fun a ha => h1 a (by simp [ha]), ?_, ?_⟩
      · intro x hx
        rcases List.mem_cons.1 hx with rfl | hx
        · exact ⟨x, h1 x (by simp), rfl, rfl⟩
        · exact h2 x hx
      · intro d hd
        rcases h3 d hd with h | h
        · rcases List.mem_append.1 h with h | h
          · exact Or.inl h
          · simp at h; exact Or.inr (by simp [h])
        · exact Or.inr (by simp [h])

theorem firsts_pairwise (cs : List Cert) : ∀ acc, acc.Pairwise (fun a b => ¬ (a.rawSubject = b.rawSubject ∧ a.raw = b.raw)) →
    (firsts acc cs).Pairwise (fun a b => ¬ (a.rawSubject = b.rawSubject ∧ a.raw = b.raw)) := by
  induction cs with
  | nil => intro acc h; exact h
  | cons c t ih =>
    intro acc h
    simp only [firsts]
    split
    · exact ih acc h
    · rename_i hany
      apply ih
      rw [List.pairwise_append]
      refine ⟨h, by simp, ?_⟩
      intro a ha b hb e
      simp at hb; subst hb
      apply hany
      simp only [List.any_eq_true, Bool.and_eq_true, decide_eq_true_eq]
      exact ⟨a, ha, e⟩

/-- The certificates were parsed from DER: equal DER bytes mean equal certificates. -/
def Parsed (cs : List Cert) : Prop := ∀ a ∈ cs, ∀ b ∈ cs, a.raw = b.raw → a = b

/-- C67, what holds: if the added certificates were parsed from DER (equal bytes mean equal certificates), the pool
contains exactly the added certificates, each once. Missing: certificates without DER bytes, which is what loggers and
CAs add (violated below). -/
theorem C67_parsed_certificates_partial (cs : List Cert) (hp : Parsed cs) :
    ∃ s, poolRun .new (cs.map .add) = .ok s ∧ s.certs.Nodup ∧ ∀ c, c ∈ s.certs ↔ c ∈ cs := by
  obtain ⟨s, h1, h2⟩ := C67_pool_contents_partial cs
  obtain ⟨_, h3, h4⟩ := firsts_mem cs []
  refine ⟨s, h1, ?_, ?_⟩
  · rw [h2]
    have hpw := firsts_pairwise cs [] List.Pairwise.nil
    refine hpw.imp ?_
    intro a b hab e
    subst e
    exact hab ⟨rfl, rfl⟩
  · intro c
    rw [h2]
    constructor
    · intro h
      rcases h4 c h with h | h
      · cases h
      · exact h
    · intro h
      obtain ⟨d, hd, _, e⟩ := h3 c h
      have hdc : d ∈ cs := by
        rcases h4 d hd with h | h
        · cases h
        · exact h
      rw [hp d hdc c h e] at hd
      exact hd

/-- C67, what holds of every history of adds: no subject is lost. The subjects the pool lists are exactly those of the added
certificates, also of the ones it did not keep, and in number they are the certificates kept. -/
theorem C67_subjects_partial (cs : List Cert) :
    ∃ s, poolRun .new (cs.map .add) = .ok s ∧ s.subjects.length = s.certs.length ∧
      ∀ x, x ∈ s.subjects ↔ ∃ c ∈ cs, c.rawSubject = x := by
  obtain ⟨s, h1, h2⟩ := C67_pool_contents_partial cs
  obtain ⟨_, h3, h4⟩ := firsts_mem cs []
  refine ⟨s, h1, by simp [CertPool.subjects], fun x => ?_⟩
  simp only [CertPool.subjects, List.mem_map, h2]
  constructor
  · rintro ⟨d, hd, rfl⟩
    rcases h4 d hd with h | h
    · cases h
    · exact ⟨d, h, rfl⟩
  · rintro ⟨c, hc, rfl⟩
    obtain ⟨d, hd, e, _⟩ := h3 c hc
    exact ⟨d, hd, e⟩

/-- C67 violated: two different pre-certificates (as stored: without DER bytes) with the same subject count as equal, in
every pool history: once one is in the pool, the other is dropped. -/
theorem C67_violated_same_subject (cs : List Cert) (a b : Cert) (hs : a.rawSubject = b.rawSubject)
    (hin : a.parseTBS ∈ cs) :
    ∃ s s', poolRun .new (cs.map .add) = .ok s ∧ s.addCert b.parseTBS = .ok s' ∧ s'.certs = s.certs := by
  obtain ⟨s, h1, h2⟩ := C67_pool_contents_partial cs
  obtain ⟨s', h3, h4⟩ := addCert_spec (cs.map .add) s b.parseTBS h1
  refine ⟨s, s', h1, h3, ?_⟩
  have hrun := specRun_adds (cs ++ [b.parseTBS]) [] (by simp)
  rw [List.map_append, List.foldl_append] at hrun
  have e : s'.certs = firsts [] (cs ++ [b.parseTBS]) := by
    rw [h4]; exact hrun
  rw [e, h2]
  -- `firsts` of the extended list
  have key : ∀ (l acc : List Cert) (x : Cert), (∃ d ∈ firsts acc l, d.rawSubject = x.rawSubject ∧ d.raw = x.raw) →
      firsts acc (l ++ [x]) = firsts acc l := by
    intro l
    induction l with
    | nil =>
      intro acc x hx
      simp only [List.nil_append, firsts] at hx ⊢
      rw [if_pos]
      simp only [List.any_eq_true, Bool.and_eq_true, decide_eq_true_eq]
      exact hx
    | cons c t ih =>
      intro acc x hx
      simp only [List.cons_append, firsts] at hx ⊢
      split
      · rename_i hc; rw [if_pos hc] at hx; exact ih _ _ hx
      · rename_i hc; rw [if_neg hc] at hx; exact ih _ _ hx
  apply key
  obtain ⟨d, hd, e1, e2⟩ := (firsts_mem cs []).2.1 a.parseTBS hin
  exact ⟨d, hd, by rw [e1]; exact hs, by rw [e2]; rfl⟩

/-! ### Non-trivial instances -/

/-- A parsed certificate with the given DER bytes, subject, issuer and key id. -/
def Ref.cert (raw subject issuer ski : Str) : Cert :=
  { raw := raw, rawTBS := raw, signature := [], rawSubject := subject, subjectCN := subject, rawIssuer := issuer,
    issuerCN := issuer, subjectKeyId := ski, authorityKeyId := [], serial := 0, isCA := false, publicKey := [],
    extensions := [], extraExtensions := [] }

/-- The same dummy subject certified by two CAs with different keys. -/
def Ref.certA : Cert := Ref.cert (go!"der1") (go!"Testing Dummy 1") (go!"C1") (go!"k1")
def Ref.certB : Cert := Ref.cert (go!"der2") (go!"Testing Dummy 1") (go!"C2") (go!"k2")

example : Parsed [Ref.certA, Ref.certB] := by unfold Parsed; decide +kernel

/-- The finding behind C67: the first certificates of two CAs have the same dummy subject, so a logger keeps only one. -/
theorem C67_violated_two_CAs : Ref.certA.parseTBS ≠ Ref.certB.parseTBS ∧
    ∃ s, poolRun .new [.add Ref.certA.parseTBS, .add Ref.certB.parseTBS] = .ok s ∧ s.certs = [Ref.certA.parseTBS] ∧
      s.getBySKI (go!"k2") = .ok none :=
  ⟨by decide +kernel, _, rfl, by decide +kernel, by decide +kernel⟩

/-- Both were added, one is kept, and the one subject is listed. -/
example : ∃ s, poolRun .new [.add Ref.certA.parseTBS, .add Ref.certB.parseTBS] = .ok s ∧ s.subjects = [Ref.certB.rawSubject] :=
  ⟨_, rfl, by decide +kernel⟩

example : ∃ s, poolRun .new [.add Ref.certA, .add Ref.certB, .update (go!"k1") Ref.certB] = .ok s ∧
    s.getBySKI (go!"k1") = .ok (some Ref.certB) ∧ s.certs.length = 2 := ⟨_, rfl, by decide +kernel, by decide +kernel⟩

/-! ### C102: possible issuers and PEM files -/

theorem mem_positions (p : PEntry → Bool) (l : List PEntry) : ∀ n i, i ∈ positions p n l ↔ ∃ j e, l[j]? = some e ∧ p e = true ∧ i = n + j := by
  induction l with
  | nil => intro n i; simp [positions]
  | cons a t ih =>
    intro n i
    have hiff : (i ∈ positions p n (a :: t)) ↔ (p a = true ∧ i = n) ∨ i ∈ positions p (n + 1) t := by
      simp only [positions]
      split <;> simp_all
    rw [hiff, ih]
    constructor
    · rintro (⟨h1, rfl⟩ | ⟨j, e, h1, h2, rfl⟩)
      · exact ⟨0, a, rfl, h1, rfl⟩
      · exact ⟨j + 1, e, h1, h2, by omega⟩
    · rintro ⟨j, e, h1, h2, rfl⟩
      cases j with
      | zero => left; cases h1; exact ⟨h2, rfl⟩
      | succ j => right; exact ⟨j, e, h1, h2, by omega⟩

/-- The positions at which a certificate was added under the key id that `c` names as its issuer's. -/
def ByKey (l : List PEntry) (c : Cert) (i : Nat) : Prop :=
  c.authorityKeyId ≠ [] ∧ ∃ e, l[i]? = some e ∧ e.ski = c.authorityKeyId

/-- C102. The possible issuers of a certificate are the certificates added under its authority key id, and only if there are
none of these, the ones added with its issuer as their subject. -/
theorem C102_possible_issuers (ops : List POp) (s : CertPool) (hs : poolRun .new ops = .ok s) (c : Cert) (i : Nat) :
    i ∈ s.findPotentialParents c ↔ ByKey (specRun ops) c i ∨
      (∀ j, ¬ ByKey (specRun ops) c j) ∧ ∃ e, (specRun ops)[i]? = some e ∧ e.name = c.rawIssuer := by
  obtain ⟨s', h1, h2⟩ := poolRun_spec ops .new [] represents_new
  rw [hs] at h1; cases h1
  have hkey : ∀ j, j ∈ (if c.authorityKeyId.length > 0 then CertPool.idx s.bySubjectKeyId c.authorityKeyId else []) ↔
      ByKey (specRun ops) c j := by
    intro j
    unfold ByKey
    by_cases hn : c.authorityKeyId = []
    · simp [hn]
    · have : c.authorityKeyId.length > 0 := by
        cases h : c.authorityKeyId with
        | nil => exact absurd h hn
        | cons => simp
      rw [if_pos this, h2.ski _ hn, mem_positions]
      constructor
      · rintro ⟨k, e, a, b, rfl⟩
        exact ⟨hn, e, by rw [Nat.zero_add]; exact a, by simpa using b⟩
      · rintro ⟨_, e, a, b⟩
        exact ⟨j, e, a, by simpa using b, by omega⟩
  have hname : i ∈ CertPool.idx s.byName c.rawIssuer ↔ ∃ e, (specRun ops)[i]? = some e ∧ e.name = c.rawIssuer := by
    rw [h2.name, mem_positions]
    constructor
    · rintro ⟨k, e, a, b, rfl⟩
      exact ⟨e, by rw [Nat.zero_add]; exact a, by simpa using b⟩
    · rintro ⟨e, a, b⟩
      exact ⟨i, e, a, by simpa using b, by omega⟩
  unfold CertPool.findPotentialParents
  dsimp only
  generalize (if c.authorityKeyId.length > 0 then CertPool.idx s.bySubjectKeyId c.authorityKeyId else []) = cand at hkey ⊢
  by_cases hc : cand.length = 0
  · have hcn : cand = [] := List.eq_nil_of_length_eq_zero hc
    have hno : ∀ j, ¬ ByKey (specRun ops) c j := fun j h => by have := (hkey j).2 h; rw [hcn] at this; cases this
    rw [if_pos hc, hname]
    exact ⟨fun h => .inr ⟨hno, h⟩, fun h => h.elim (fun h => absurd h (hno i)) (·.2)⟩
  · rw [if_neg hc, hkey]
    refine ⟨.inl, fun h => h.elim id fun h => ?_⟩
    cases hcc : cand with
    | nil => rw [hcc] at hc; exact absurd rfl hc
    | cons j t => exact absurd ((hkey j).1 (by rw [hcc]; simp)) (h.1 j)

/-- The blocks of a PEM text, in order. -/
inductive PemBlocks (dec : Str → Option (CertPool.PemBlock × Str)) : Str → List CertPool.PemBlock → Prop
  | done : PemBlocks dec [] []
  | junk {t : Str} : t ≠ [] → dec t = none → PemBlocks dec t []
  | block {t rest : Str} {b : CertPool.PemBlock} {bs : List CertPool.PemBlock} :
      t ≠ [] → dec t = some (b, rest) → PemBlocks dec rest bs → PemBlocks dec t (b :: bs)

/-- The certificate in a block: a block of type CERTIFICATE without headers whose content is a certificate. -/
def certOf (parse : Str → Option Cert) (b : CertPool.PemBlock) : Option Cert :=
  if b.type = go!"CERTIFICATE" ∧ b.headers = [] then parse b.bytes else none

/-- C102. Reading a PEM text adds exactly the certificates in it, in the order of the text, and reports whether there were
any; `pem.Decode` is only required to make progress. -/
theorem C102_pem_adds_certificates (dec : Str → Option (CertPool.PemBlock × Str)) (parse : Str → Option Cert)
    (hdec : ∀ t b r, dec t = some (b, r) → r.length < t.length) (ops : List POp) (s : CertPool)
    (hs : poolRun .new ops = .ok s) (text : Str) (n : Nat) (hn : text.length ≤ n) :
    ∃ bs s', PemBlocks dec text bs ∧
      CertPool.appendPEM dec parse n s text = .ok (s', !(bs.filterMap (certOf parse)).isEmpty) ∧
      poolRun .new (ops ++ (bs.filterMap (certOf parse)).map .add) = .ok s' := by
  have app : ∀ (a b : List POp) (s s' : CertPool), poolRun s a = .ok s' → poolRun s (a ++ b) = poolRun s' b := by
    intro a b
    induction a with
    | nil => intro s s' h; cases h; rfl
    | cons o t ih =>
      intro s s' h
      simp only [List.cons_append, poolRun] at h ⊢
      cases ho : poolOp s o with
      | panic => rw [ho] at h; cases h
      | ok s1 => rw [ho] at h; exact ih s1 s' h
  induction n generalizing ops s text with
  | zero =>
    cases text with
    | nil => exact ⟨[], s, .done, rfl, by simpa using hs⟩
    | cons => simp at hn
  | succ n ih =>
    cases text with
    | nil => exact ⟨[], s, .done, rfl, by simpa using hs⟩
    | cons a t =>
      cases hd : dec (a :: t) with
      | none =>
        refine ⟨[], s, .junk (by simp) hd, ?_, by simpa using hs⟩
        simp [CertPool.appendPEM, hd]
      | some x =>
        obtain ⟨b, rest⟩ := x
        have hlt := hdec _ _ _ hd
        have hlen : rest.length ≤ n := by omega
        cases hc : certOf parse b with
        | none =>
          obtain ⟨bs, s', h1, h2, h3⟩ := ih ops s hs rest hlen
          refine ⟨b :: bs, s', .block (by simp) hd h1, ?_, ?_⟩
          · have : CertPool.appendPEM dec parse (n + 1) s (a :: t) = CertPool.appendPEM dec parse n s rest := by
              simp only [CertPool.appendPEM, hd, List.length_cons, Nat.add_eq_zero_iff, Nat.succ_ne_self, and_false, if_false]
              unfold certOf at hc
              by_cases hb : b.type = go!"CERTIFICATE" ∧ b.headers = []
              · rw [if_pos hb] at hc
                simp [hb.1, hb.2, hc]
              · rw [if_pos]
                by_cases h : b.type = go!"CERTIFICATE"
                · exact .inr fun e => hb ⟨h, List.eq_nil_of_length_eq_zero e⟩
                · exact .inl h
            rw [this, h2, List.filterMap_cons, hc]
          · rw [List.filterMap_cons, hc]; exact h3
        | some x =>
          obtain ⟨s1, g1, g2⟩ := poolRun_spec ops .new [] represents_new
          rw [hs] at g1; cases g1
          obtain ⟨s1, g3, g4⟩ := poolOp_spec g2 (.add x)
          have hs1 : poolRun .new (ops ++ [.add x]) = .ok s1 := by
            rw [app _ _ _ _ hs]
            simp only [poolRun, g3]
          obtain ⟨bs, s', h1, h2, h3⟩ := ih (ops ++ [.add x]) s1 hs1 rest hlen
          refine ⟨b :: bs, s', .block (by simp) hd h1, ?_, ?_⟩
          · unfold certOf at hc
            by_cases hb : b.type = go!"CERTIFICATE" ∧ b.headers = []
            · rw [if_pos hb] at hc
              have g3' : s.addCert x = .ok s1 := g3
              have hc' : certOf parse b = some x := by unfold certOf; rw [if_pos hb]; exact hc
              rw [List.filterMap_cons, hc']
              simp [CertPool.appendPEM, hd, hb.1, hb.2, hc, g3', h2]
            · rw [if_neg hb] at hc; cases hc
          · rw [List.filterMap_cons, hc]
            simpa using h3

namespace Ref

/-- Certificates for the examples: a root, its successor with the same key, and a leaf naming the key. -/
def pcert (raw subj iss ski aki : Str) : Cert :=
  { certA with raw := raw, rawSubject := subj, rawIssuer := iss, subjectKeyId := ski, authorityKeyId := aki }

/-- Two certificates under the key id, one with the right name but another key: only the first two are candidates. -/
example : ∃ s, poolRun .new [.add (pcert (go!"1") (go!"R") (go!"R") (go!"k") []), .add (pcert (go!"2") (go!"R") (go!"R") (go!"x") []),
    .add (pcert (go!"3") (go!"S") (go!"R") (go!"k") [])] = .ok s ∧
    s.findPotentialParents (pcert (go!"4") (go!"L") (go!"R") [] (go!"k")) = [0, 2] ∧
    s.findPotentialParents (pcert (go!"4") (go!"L") (go!"R") [] (go!"z")) = [0, 1] := by
  refine ⟨_, rfl, ?_, ?_⟩ <;> decide +kernel

/-- A decoder that takes the first byte as a block: 'c' is a certificate, everything else another block. -/
def pemDec : Str → Option (CertPool.PemBlock × Str)
  | [] => none
  | a :: t => some (⟨if a = 99 then go!"CERTIFICATE" else go!"KEY", [], [a]⟩, t)

example : (∀ t b r, pemDec t = some (b, r) → r.length < t.length) ∧
    CertPool.appendPEM pemDec (fun b => some (pcert b b b b [])) 3 .new (go!"kcc") =
      match CertPool.new.addCert (pcert (go!"c") (go!"c") (go!"c") (go!"c") []) with
      | .ok s => .ok (s, true)
      | .panic => .panic := by
  refine ⟨?_, by rfl⟩
  intro t b r h
  cases t with
  | nil => cases h
  | cons a t => cases h; simp

end Ref

end CTng
