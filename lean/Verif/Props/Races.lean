import Verif.Model.Races
/- Which fields and maps of a CA, a logger and a monitor can be accessed by two goroutines at once: C128-C130. -/
set_option autoImplicit false

namespace CTng
variable {K V : Type} [DecidableEq K] [DecidableEq V]

/-! ### What a race is -/

/-- Two goroutines are in the middle of accesses to `v`, one of them a write. The Go memory model gives no meaning to what follows;
for a map the runtime ends the process when it notices. -/
def Race (v : V) (ts : List (RThread K V)) : Prop :=
  ∃ (i j : Nat) (a b : RThread K V) (m m' : RMode), i ≠ j ∧ ts[i]? = some a ∧ ts[j]? = some b ∧
    (v, m) ∈ a.opened ∧ (v, m') ∈ b.opened ∧ (m = .w ∨ m' = .w)

/-! ### Guards -/

/-- A variable is guarded by locks: who writes holds all of them, who reads holds one of them. No lock at all means nobody writes. -/
def Covered (gs : List K) (h : List (K × RMode)) : RMode → Prop
  | .w => gs ≠ [] ∧ ∀ l ∈ gs, (l, RMode.w) ∈ h
  | .r => gs = [] ∨ ∃ l ∈ gs, ∃ m, (l, m) ∈ h

def coveredB (gs : List K) (h : List (K × RMode)) : RMode → Bool
  | .w => !gs.isEmpty && gs.all fun l => h.contains (l, RMode.w)
  | .r => gs.isEmpty || gs.any fun l => h.contains (l, RMode.r) || h.contains (l, RMode.w)

theorem coveredB_sound {gs : List K} {h : List (K × RMode)} {m : RMode} (hb : coveredB gs h m = true) : Covered gs h m := by
  cases m with
  | w =>
    simp only [coveredB, Bool.and_eq_true, Bool.not_eq_true', List.isEmpty_eq_false_iff, List.all_eq_true, List.contains_eq_mem,
      decide_eq_true_eq] at hb
    exact hb
  | r =>
    simp only [coveredB, Bool.or_eq_true, List.isEmpty_iff, List.any_eq_true, List.contains_eq_mem, decide_eq_true_eq] at hb
    rcases hb with hb | ⟨l, hl, h1 | h1⟩
    · exact Or.inl hb
    · exact Or.inr ⟨l, hl, _, h1⟩
    · exact Or.inr ⟨l, hl, _, h1⟩

/-- The check of a program: at every access to `v` the locks held are as `cb` wants them. -/
def guardedB (v : V) (cb : List (K × RMode) → RMode → Bool) (h : List (K × RMode)) : RProg K V → Bool
  | .skip => true
  | .acc v' m => v' != v || cb h m
  | .under l m b => guardedB v cb ((l, m) :: h) b
  | .seq p q => guardedB v cb h p && guardedB v cb h q
  | .alt p q => guardedB v cb h p && guardedB v cb h q
  | .loop p => guardedB v cb h p

/-- A goroutine, run alone, has the guards at each of its accesses. -/
def OkAt (v : V) (C : List (K × RMode) → RMode → Prop) (h : List (K × RMode)) (o : List (V × RMode)) : List (ROp K V) → Prop
  | [] => ∀ m, (v, m) ∈ o → C h m
  | .acq l m :: k => (∀ m, (v, m) ∈ o → C h m) ∧ OkAt v C ((l, m) :: h) o k
  | .rel l m :: k => (∀ m, (v, m) ∈ o → C h m) ∧ OkAt v C (h.erase (l, m)) o k
  | .beg v' m :: k => (∀ m, (v, m) ∈ o → C h m) ∧ OkAt v C h ((v', m) :: o) k
  | .fin v' m :: k => (∀ m, (v, m) ∈ o → C h m) ∧ OkAt v C h (o.erase (v', m)) k

theorem OkAt.now {v : V} {C : List (K × RMode) → RMode → Prop} {h : List (K × RMode)} {o : List (V × RMode)} {k : List (ROp K V)} (hk : OkAt v C h o k) :
    ∀ m, (v, m) ∈ o → C h m := by
  cases k with
  | nil => exact hk
  | cons op k => cases op <;> exact hk.1

theorem okAt_of_guarded {v : V} {C : List (K × RMode) → RMode → Prop} {cb : List (K × RMode) → RMode → Bool}
    (hcb : ∀ h m, cb h m = true → C h m) {p : RProg K V} {t : List (ROp K V)} (ht : RTrace p t) :
    ∀ (h : List (K × RMode)) (rest : List (ROp K V)), guardedB v cb h p = true → OkAt v C h [] rest → OkAt v C h [] (t ++ rest) := by
  induction ht with
  | skip => intro h rest _ hr; exact hr
  | acc v' m =>
    intro h rest hg hr
    simp only [guardedB, Bool.or_eq_true, bne_iff_ne, ne_eq] at hg
    refine ⟨by simp, ?_, ?_⟩
    · intro m' hm
      simp only [List.mem_singleton, Prod.mk.injEq] at hm
      obtain ⟨rfl, rfl⟩ := hm
      rcases hg with hg | hg
      · exact absurd rfl hg
      · exact hcb _ _ hg
    · simpa using hr
  | @under l m b t _ ih =>
    intro h rest hg hr
    refine ⟨by simp, ?_⟩
    have := ih ((l, m) :: h) (.rel l m :: rest) hg ⟨by simp, by simpa using hr⟩
    simpa using this
  | seq _ _ ih1 ih2 =>
    intro h rest hg hr
    simp only [guardedB, Bool.and_eq_true] at hg
    rw [List.append_assoc]
    exact ih1 h _ hg.1 (ih2 h rest hg.2 hr)
  | altL _ ih => intro h rest hg hr; simp only [guardedB, Bool.and_eq_true] at hg; exact ih h rest hg.1 hr
  | altR _ ih => intro h rest hg hr; simp only [guardedB, Bool.and_eq_true] at hg; exact ih h rest hg.2 hr
  | loopEnd => intro h rest _ hr; exact hr
  | loopMore _ _ ih1 ih2 =>
    intro h rest hg hr
    rw [List.append_assoc]
    exact ih1 h _ hg (ih2 h rest hg hr)

/-- Locks exclude each other. -/
def Excl (ts : List (RThread K V)) : Prop :=
  ∀ (i j : Nat) (a b : RThread K V) (l : K) (m m' : RMode), i ≠ j → ts[i]? = some a → ts[j]? = some b →
    (l, m) ∈ a.held → (l, m') ∈ b.held → m = .r ∧ m' = .r

/-- The thread after a step. -/
theorem rstep_cases {ts ts' : List (RThread K V)} {i : Nat} (h : rstep ts i = some ts') :
    ∃ t t', ts[i]? = some t ∧ ts' = ts.set i t' ∧
      ((∃ l m k, t.todo = .acq l m :: k ∧ canAcq ts l m = true ∧ t' = ⟨k, (l, m) :: t.held, t.opened⟩) ∨
       (∃ l m k, t.todo = .rel l m :: k ∧ t' = ⟨k, t.held.erase (l, m), t.opened⟩) ∨
       (∃ v m k, t.todo = .beg v m :: k ∧ t' = ⟨k, t.held, (v, m) :: t.opened⟩) ∨
       (∃ v m k, t.todo = .fin v m :: k ∧ t' = ⟨k, t.held, t.opened.erase (v, m)⟩)) := by
  unfold rstep at h
  split at h
  · cases h
  rename_i t ht
  split at h
  · cases h
  · rename_i l m k hk
    split at h
    · rename_i hc
      simp only [Option.some.injEq] at h
      exact ⟨t, _, ht, h.symm, Or.inl ⟨l, m, k, hk, hc, rfl⟩⟩
    · cases h
  · rename_i l m k hk
    simp only [Option.some.injEq] at h
    exact ⟨t, _, ht, h.symm, Or.inr (Or.inl ⟨l, m, k, hk, rfl⟩)⟩
  · rename_i v m k hk
    simp only [Option.some.injEq] at h
    exact ⟨t, _, ht, h.symm, Or.inr (Or.inr (Or.inl ⟨v, m, k, hk, rfl⟩))⟩
  · rename_i v m k hk
    simp only [Option.some.injEq] at h
    exact ⟨t, _, ht, h.symm, Or.inr (Or.inr (Or.inr ⟨v, m, k, hk, rfl⟩))⟩

theorem canAcq_spec {ts : List (RThread K V)} {l : K} {m : RMode} (h : canAcq ts l m = true) {t : RThread K V} (ht : t ∈ ts) {m' : RMode}
    (hm : (l, m') ∈ t.held) : m' = .r ∧ m = .r := by
  unfold canAcq at h
  have := List.all_eq_true.1 (List.all_eq_true.1 h t ht) _ hm
  simpa using this

theorem set_get {α : Type} {ts : List α} {i : Nat} {t' : α} {j : Nat} {a : α} (h : (ts.set i t')[j]? = some a) :
    (i = j ∧ a = t') ∨ (i ≠ j ∧ ts[j]? = some a) := by
  by_cases hij : i = j
  · subst hij
    by_cases hlt : i < ts.length
    · rw [List.getElem?_set_self hlt] at h; exact Or.inl ⟨rfl, (Option.some.inj h).symm⟩
    · rw [List.getElem?_eq_none (by simpa using hlt)] at h; cases h
  · rw [List.getElem?_set_ne hij] at h; exact Or.inr ⟨hij, h⟩

theorem append_get {α : Type} {ts : List α} {t : α} {j : Nat} {a : α} (h : (ts ++ [t])[j]? = some a) :
    ts[j]? = some a ∨ (j = ts.length ∧ a = t) := by
  by_cases hlt : j < ts.length
  · rw [List.getElem?_append_left hlt] at h; exact Or.inl h
  · rw [List.getElem?_append_right (by omega)] at h
    have h0 : j - ts.length = 0 := by
      cases hn : j - ts.length with
      | zero => rfl
      | succ n => rw [hn] at h; simp at h
    rw [h0] at h
    simp only [List.getElem?_cons_zero, Option.some.injEq] at h
    exact Or.inr ⟨by omega, h.symm⟩

theorem excl_reach {progs : List (RProg K V)} {ts : List (RThread K V)} (h : RReach progs ts) : Excl ts := by
  induction h with
  | init => intro i j a b l m m' _ ha; simp at ha
  | @spawn ts p t _ _ _ ih =>
    intro i j a b l m m' hij ha hb hm hm'
    rcases append_get ha with ha | ⟨_, rfl⟩
    · rcases append_get hb with hb | ⟨_, rfl⟩
      · exact ih i j a b l m m' hij ha hb hm hm'
      · cases hm'
    · cases hm
  | @step ts ts' i _ hs ih =>
    obtain ⟨t, t', ht, rfl, hc⟩ := rstep_cases hs
    -- what the stepping thread holds afterwards: held before, or the lock it could acquire
    have hheld : ∀ l m, (l, m) ∈ t'.held → (l, m) ∈ t.held ∨ canAcq ts l m = true := by
      intro l m hm
      rcases hc with ⟨l', m', k, _, hca, rfl⟩ | ⟨l', m', k, _, rfl⟩ | ⟨v, m', k, _, rfl⟩ | ⟨v, m', k, _, rfl⟩
      · rcases List.mem_cons.1 hm with e | hm
        · cases e; exact Or.inr hca
        · exact Or.inl hm
      · exact Or.inl (List.mem_of_mem_erase hm)
      · exact Or.inl hm
      · exact Or.inl hm
    intro x y a b l m m' hxy ha hb hm hm'
    rcases set_get ha with ⟨e1, ea⟩ | ⟨h1, ha'⟩
    · rcases set_get hb with ⟨e2, _⟩ | ⟨h2, hb'⟩
      · exact absurd (e1.symm.trans e2) hxy
      · rcases hheld l m (ea ▸ hm) with hm | hca
        · exact ih i y t b l m m' (e1 ▸ hxy) ht hb' hm hm'
        · exact (canAcq_spec hca (List.mem_of_getElem? hb') hm').symm
    · rcases set_get hb with ⟨e2, eb⟩ | ⟨h2, hb'⟩
      · rcases hheld l m' (eb ▸ hm') with hm' | hca
        · exact ih x i a t l m m' (Ne.symm h1) ha' ht hm hm'
        · exact canAcq_spec hca (List.mem_of_getElem? ha') hm
      · exact ih x y a b l m m' hxy ha' hb' hm hm'

theorem okAt_reach {progs : List (RProg K V)} {v : V} {C : List (K × RMode) → RMode → Prop} {cb : List (K × RMode) → RMode → Bool}
    (hcb : ∀ h m, cb h m = true → C h m) (hg : ∀ p ∈ progs, guardedB v cb [] p = true)
    {ts : List (RThread K V)} (h : RReach progs ts) : ∀ t ∈ ts, OkAt v C t.held t.opened t.todo := by
  induction h with
  | init => intro t ht; cases ht
  | @spawn ts p t _ hp htr ih =>
    intro x hx
    rcases List.mem_append.1 hx with hx | hx
    · exact ih x hx
    · simp only [List.mem_singleton] at hx
      subst hx
      have := okAt_of_guarded hcb htr [] [] (hg p hp) (by intro m hm; cases hm)
      simpa using this
  | @step ts ts' i _ hs ih =>
    obtain ⟨t, t', ht, rfl, hc⟩ := rstep_cases hs
    intro x hx
    rcases List.mem_or_eq_of_mem_set hx with hx | rfl
    · exact ih x hx
    · have hok := ih t (List.mem_of_getElem? ht)
      rcases hc with ⟨l', m', k, hk, _, rfl⟩ | ⟨l', m', k, hk, rfl⟩ | ⟨v', m', k, hk, rfl⟩ | ⟨v', m', k, hk, rfl⟩ <;>
        (rw [hk] at hok; exact hok.2)

/-- If every access of every program to `v` is under its guards, no schedule has a race on `v`. -/
theorem guarded_no_race {progs : List (RProg K V)} {v : V} (gs : List K) (hg : (progs.all fun p => guardedB v (coveredB gs) [] p) = true)
    {ts : List (RThread K V)} (h : RReach progs ts) : ¬ Race v ts := by
  rintro ⟨i, j, a, b, m, m', hij, ha, hb, hm, hm', hw⟩
  have hok := okAt_reach (fun _ _ => coveredB_sound) (fun p hp => List.all_eq_true.1 hg p hp) h
  have hx := excl_reach h
  have ca := (hok a (List.mem_of_getElem? ha)).now m hm
  have cb := (hok b (List.mem_of_getElem? hb)).now m' hm'
  have key : ∀ (i j : Nat) (a b : RThread K V) (m' : RMode), i ≠ j → ts[i]? = some a → ts[j]? = some b →
      Covered gs a.held .w → Covered gs b.held m' → False := by
    intro i j a b m' hij ha hb hc hc'
    obtain ⟨l, hl, k, hk⟩ : ∃ l ∈ gs, ∃ k, (l, k) ∈ b.held := by
      cases m' with
      | w =>
        cases gs with
        | nil => exact absurd rfl hc.1
        | cons l r => exact ⟨l, by simp, .w, hc'.2 l (by simp)⟩
      | r =>
        rcases hc' with e | h
        · exact absurd e hc.1
        · exact h
    have := (hx i j a b l .w k hij ha hb (hc.2 l hl) hk).1
    cases this
  rcases hw with rfl | rfl
  · exact key i j a b m' hij ha hb ca cb
  · exact key j i b a m hij.symm hb ha cb ca

/-- Two goroutines are in the middle of writes to `v`. -/
def WriteRace (v : V) (ts : List (RThread K V)) : Prop :=
  ∃ (i j : Nat) (a b : RThread K V), i ≠ j ∧ ts[i]? = some a ∧ ts[j]? = some b ∧ (v, RMode.w) ∈ a.opened ∧ (v, RMode.w) ∈ b.opened

/-- Only writes need the lock. -/
def writesUnder (l : K) (h : List (K × RMode)) : RMode → Bool
  | .w => h.contains (l, RMode.w)
  | .r => true

/-- If every write of every program to `v` is under one lock, no schedule has two writes to `v` at once. -/
theorem guarded_no_writeRace {progs : List (RProg K V)} {v : V} (l : K)
    (hg : (progs.all fun p => guardedB v (writesUnder l) [] p) = true) {ts : List (RThread K V)} (h : RReach progs ts) :
    ¬ WriteRace v ts := by
  rintro ⟨i, j, a, b, hij, ha, hb, hm, hm'⟩
  have hok := okAt_reach (C := fun h m => m = .w → (l, RMode.w) ∈ h) (cb := writesUnder l) (fun h m hc e => by
    subst e; simpa [writesUnder] using hc) (fun p hp => List.all_eq_true.1 hg p hp) h
  have ca := (hok a (List.mem_of_getElem? ha)).now .w hm rfl
  have cb := (hok b (List.mem_of_getElem? hb)).now .w hm' rfl
  have := (excl_reach h i j a b l .w .w hij ha hb ca cb).1
  cases this

/-! ### Two programs that race -/

/-- One trace of a program, as short as choices allow. -/
def oneTrace : RProg K V → List (ROp K V)
  | .skip => []
  | .acc v m => [.beg v m, .fin v m]
  | .under l m b => .acq l m :: oneTrace b ++ [.rel l m]
  | .seq p q => oneTrace p ++ oneTrace q
  | .alt p q => if (oneTrace p).length ≤ (oneTrace q).length then oneTrace p else oneTrace q
  | .loop _ => []

omit [DecidableEq K] [DecidableEq V] in
theorem oneTrace_trace (p : RProg K V) : RTrace p (oneTrace p) := by
  induction p with
  | skip => exact .skip
  | acc v m => exact .acc v m
  | under l m b ih => exact .under ih
  | seq p q ih1 ih2 => exact .seq ih1 ih2
  | alt p q ih1 ih2 =>
    unfold oneTrace
    split
    · exact .altL ih1
    · exact .altR ih2
  | loop p _ => exact .loopEnd

/-- Ways to come to an access of `v` in mode `m`. -/
def waysTo (v : V) (m : RMode) : RProg K V → List (List (ROp K V))
  | .skip => []
  | .acc v' m' => if v' = v ∧ m' = m then [[]] else []
  | .under l k b => (waysTo v m b).map (.acq l k :: ·)
  | .seq p q => waysTo v m p ++ (waysTo v m q).map (oneTrace p ++ ·)
  | .alt p q => waysTo v m p ++ waysTo v m q
  | .loop p => waysTo v m p

omit [DecidableEq K] in
theorem waysTo_sound {v : V} {m : RMode} (p : RProg K V) : ∀ a ∈ waysTo v m p, ∃ t, RTrace p (a ++ .beg v m :: t) := by
  induction p with
  | skip => intro a ha; cases ha
  | acc v' m' =>
    intro a ha
    unfold waysTo at ha
    split at ha
    · rename_i h
      obtain ⟨rfl, rfl⟩ := h
      simp only [List.mem_singleton] at ha
      subst ha
      exact ⟨[.fin v' m'], .acc v' m'⟩
    · cases ha
  | under l k b ih =>
    intro a ha
    simp only [waysTo, List.mem_map] at ha
    obtain ⟨a', ha', rfl⟩ := ha
    obtain ⟨t, ht⟩ := ih a' ha'
    exact ⟨t ++ [.rel l k], by simpa using RTrace.under (l := l) (m := k) ht⟩
  | seq p q ih1 ih2 =>
    intro a ha
    simp only [waysTo, List.mem_append, List.mem_map] at ha
    rcases ha with ha | ⟨a', ha', rfl⟩
    · obtain ⟨t, ht⟩ := ih1 a ha
      exact ⟨t ++ oneTrace q, by simpa using RTrace.seq ht (oneTrace_trace q)⟩
    · obtain ⟨t, ht⟩ := ih2 a' ha'
      exact ⟨t, by simpa using RTrace.seq (oneTrace_trace p) ht⟩
  | alt p q ih1 ih2 =>
    intro a ha
    simp only [waysTo, List.mem_append] at ha
    rcases ha with ha | ha
    · obtain ⟨t, ht⟩ := ih1 a ha; exact ⟨t, .altL ht⟩
    · obtain ⟨t, ht⟩ := ih2 a ha; exact ⟨t, .altR ht⟩
  | loop p ih =>
    intro a ha
    obtain ⟨t, ht⟩ := ih a ha
    exact ⟨t, by simpa using RTrace.loopMore ht .loopEnd⟩

/-- Steps that never take a lock while one is held. -/
def flatFrom (h : List (K × RMode)) : List (ROp K V) → Bool
  | [] => true
  | .acq l m :: k => h.isEmpty && flatFrom [(l, m)] k
  | .rel l m :: k => flatFrom (h.erase (l, m)) k
  | .beg _ _ :: k => flatFrom h k
  | .fin _ _ :: k => flatFrom h k

/-- The locks held after some steps. -/
def heldAfter (h : List (K × RMode)) : List (ROp K V) → List (K × RMode)
  | [] => h
  | .acq l m :: k => heldAfter ((l, m) :: h) k
  | .rel l m :: k => heldAfter (h.erase (l, m)) k
  | .beg _ _ :: k => heldAfter h k
  | .fin _ _ :: k => heldAfter h k

/-- Steps that take none of the locks held by somebody else. -/
def apartB (h : List (K × RMode)) (b : List (ROp K V)) : Bool :=
  b.all fun o => match o with
    | .acq l _ => h.all fun x => x.1 != l
    | _ => true

/-- A program of `ps` and one of `qs` come to accesses of `v`, one of them a write, and the second needs no lock the first holds
there. -/
def conflictB (ps qs : List (RProg K V)) (v : V) : Bool :=
  [(RMode.w, RMode.w), (.w, .r), (.r, .w)].any fun mm => ps.any fun p => qs.any fun q =>
    (waysTo v mm.1 p).any fun a => flatFrom [] a && (waysTo v mm.2 q).any fun b => flatFrom [] b && apartB (heldAfter [] a) b

/-- Any number of steps. -/
inductive RSteps : List (RThread K V) → List (RThread K V) → Prop where
  | refl (ts : List (RThread K V)) : RSteps ts ts
  | step {ts ts' ts'' : List (RThread K V)} {i : Nat} : rstep ts i = some ts' → RSteps ts' ts'' → RSteps ts ts''

theorem RSteps.trans {a b c : List (RThread K V)} (h : RSteps a b) (h' : RSteps b c) : RSteps a c := by
  induction h with
  | refl => exact h'
  | step hs _ ih => exact .step hs (ih h')

theorem RReach.steps {progs : List (RProg K V)} {a b : List (RThread K V)} (h : RReach progs a) (hs : RSteps a b) : RReach progs b := by
  induction hs with
  | refl => exact h
  | step hs _ ih => exact ih (.step h hs)

/-- A goroutine run alone for some steps: the others hold none of the locks it takes. -/
theorem solo_run (ts us : List (RThread K V)) (x : List (ROp K V)) :
    ∀ (a : List (ROp K V)) (h : List (K × RMode)) (o : List (V × RMode)), flatFrom h a = true →
      (∀ t ∈ ts ++ us, apartB t.held a = true) →
      ∃ o', RSteps (ts ++ ⟨a ++ x, h, o⟩ :: us) (ts ++ ⟨x, heldAfter h a, o'⟩ :: us) := by
  have hget : ∀ q : RThread K V, (ts ++ q :: us)[ts.length]? = some q := by intro q; simp
  have hset : ∀ q q' : RThread K V, (ts ++ q :: us).set ts.length q' = ts ++ q' :: us := by intro q q'; simp
  intro a
  induction a with
  | nil => intro h o _ _; exact ⟨o, .refl _⟩
  | cons op k ih =>
    intro h o hf hap
    have hk : ∀ t ∈ ts ++ us, apartB t.held k = true := by
      intro t ht
      have := hap t ht
      unfold apartB at this ⊢
      rw [List.all_cons, Bool.and_eq_true] at this
      exact this.2
    cases op with
    | acq l m =>
      simp only [flatFrom, Bool.and_eq_true, List.isEmpty_iff] at hf
      obtain ⟨rfl, hf⟩ := hf
      obtain ⟨o', hs⟩ := ih [(l, m)] o hf hk
      refine ⟨o', .step (i := ts.length) ?_ hs⟩
      have hc : canAcq (ts ++ ⟨.acq l m :: k ++ x, [], o⟩ :: us) l m = true := by
        unfold canAcq
        rw [List.all_eq_true]
        intro t ht
        have hcase : t.held = [] ∨ t ∈ ts ++ us := by
          rcases List.mem_append.1 ht with ht | ht
          · exact Or.inr (List.mem_append_left _ ht)
          · rcases List.mem_cons.1 ht with rfl | ht
            · exact Or.inl rfl
            · exact Or.inr (List.mem_append_right _ ht)
        rcases hcase with e | ht
        · rw [e]; rfl
        · have := hap t ht
          unfold apartB at this
          rw [List.all_cons, Bool.and_eq_true] at this
          rw [List.all_eq_true]
          intro y hy
          have := List.all_eq_true.1 this.1 y hy
          rw [this, Bool.true_or]
      unfold rstep
      simp only [hget, List.cons_append]
      rw [if_pos (by simpa using hc), hset]
    | rel l m =>
      obtain ⟨o', hs⟩ := ih (h.erase (l, m)) o hf hk
      refine ⟨o', .step (i := ts.length) ?_ hs⟩
      unfold rstep
      simp only [hget, List.cons_append, hset]
    | beg v m =>
      obtain ⟨o', hs⟩ := ih h ((v, m) :: o) hf hk
      refine ⟨o', .step (i := ts.length) ?_ hs⟩
      unfold rstep
      simp only [hget, List.cons_append, hset]
    | fin v m =>
      obtain ⟨o', hs⟩ := ih h (o.erase (v, m)) hf hk
      refine ⟨o', .step (i := ts.length) ?_ hs⟩
      unfold rstep
      simp only [hget, List.cons_append, hset]

/-- Whatever other goroutines there are, as long as none of them holds a lock: a goroutine that runs a program of `ps` and one that
runs a program of `qs` can be started and executed until they race on `v`. -/
def RaceOf (ps qs : List (RProg K V)) (v : V) : Prop :=
  ∀ ts : List (RThread K V), (∀ t ∈ ts, t.held = []) → ∃ p ∈ ps, ∃ q ∈ qs, ∃ t u, RTrace p t ∧ RTrace q u ∧
    ∃ ts', RSteps (ts ++ [⟨t, [], []⟩, ⟨u, [], []⟩]) ts' ∧ Race v ts'

theorem conflict_race {ps qs : List (RProg K V)} {v : V} (hc : conflictB ps qs v = true) : RaceOf ps qs v := by
  intro ts hfree
  unfold conflictB at hc
  obtain ⟨⟨m, m'⟩, hmm, hc⟩ := List.any_eq_true.1 hc
  obtain ⟨p, hp, hc⟩ := List.any_eq_true.1 hc
  obtain ⟨q, hq, hc⟩ := List.any_eq_true.1 hc
  obtain ⟨a, ha, hc⟩ := List.any_eq_true.1 hc
  rw [Bool.and_eq_true] at hc
  obtain ⟨hf, hc⟩ := hc
  obtain ⟨b, hb, hn⟩ := List.any_eq_true.1 hc
  rw [Bool.and_eq_true] at hn
  obtain ⟨hfb, hn⟩ := hn
  obtain ⟨ta, hta⟩ := waysTo_sound p a ha
  obtain ⟨tb, htb⟩ := waysTo_sound q b hb
  have hw : m = .w ∨ m' = .w := by
    simp only [List.mem_cons, Prod.mk.injEq, List.not_mem_nil, or_false] at hmm
    rcases hmm with ⟨h, _⟩ | ⟨h, _⟩ | ⟨_, h⟩
    · exact Or.inl h
    · exact Or.inl h
    · exact Or.inr h
  have hnil : ∀ k : List (ROp K V), apartB ([] : List (K × RMode)) k = true := by
    intro k
    unfold apartB
    rw [List.all_eq_true]
    intro o _
    cases o <;> rfl
  refine ⟨p, hp, q, hq, _, _, hta, htb, ?_⟩
  obtain ⟨o1, s1⟩ := solo_run ts [⟨b ++ .beg v m' :: tb, [], []⟩] (.beg v m :: ta) a [] [] hf (by
    intro t ht
    have : t.held = [] := by
      rcases List.mem_append.1 ht with ht | ht
      · exact hfree t ht
      · simp only [List.mem_singleton] at ht; subst ht; rfl
    rw [this]
    exact hnil a)
  generalize heldAfter [] a = h1 at s1 hn
  have s2 : RSteps (ts ++ [⟨.beg v m :: ta, h1, o1⟩, ⟨b ++ .beg v m' :: tb, [], []⟩])
      (ts ++ [⟨ta, h1, (v, m) :: o1⟩, ⟨b ++ .beg v m' :: tb, [], []⟩]) := by
    refine .step (i := ts.length) ?_ (.refl _)
    unfold rstep
    simp
  obtain ⟨o2, s3⟩ := solo_run (ts ++ [⟨ta, h1, (v, m) :: o1⟩]) [] (.beg v m' :: tb) b [] [] hfb (by
    intro t ht
    rw [List.append_nil] at ht
    rcases List.mem_append.1 ht with ht | ht
    · rw [hfree t ht]; exact hnil b
    · simp only [List.mem_singleton] at ht; subst ht; exact hn)
  rw [List.append_assoc, List.append_assoc] at s3
  simp only [List.singleton_append] at s3
  generalize heldAfter [] b = h2 at s3
  have s4 : RSteps (ts ++ [⟨ta, h1, (v, m) :: o1⟩, ⟨.beg v m' :: tb, h2, o2⟩])
      (ts ++ [⟨ta, h1, (v, m) :: o1⟩, ⟨tb, h2, (v, m') :: o2⟩]) := by
    refine .step (i := ts.length + 1) ?_ (.refl _)
    unfold rstep
    simp
  refine ⟨_, s1.trans (s2.trans (s3.trans s4)), ?_⟩
  exact ⟨ts.length, ts.length + 1, ⟨ta, h1, (v, m) :: o1⟩, ⟨tb, h2, (v, m') :: o2⟩, m, m', by omega, by simp, by simp, by simp, by simp, hw⟩

/-! ### No deadlock -/

/-- No lock is taken inside. -/
def lockFree : RProg K V → Bool
  | .skip => true
  | .acc _ _ => true
  | .under _ _ _ => false
  | .seq p q => lockFree p && lockFree q
  | .alt p q => lockFree p && lockFree q
  | .loop p => lockFree p

/-- No lock is taken while another one is held. -/
def flatProg : RProg K V → Bool
  | .skip => true
  | .acc _ _ => true
  | .under _ _ b => lockFree b
  | .seq p q => flatProg p && flatProg q
  | .alt p q => flatProg p && flatProg q
  | .loop p => flatProg p

/-- The steps left take one lock at a time and give every lock back. -/
def FlatAt (h : List (K × RMode)) : List (ROp K V) → Prop
  | [] => h = []
  | .acq l m :: k => h = [] ∧ FlatAt [(l, m)] k
  | .rel l m :: k => h = [(l, m)] ∧ FlatAt [] k
  | .beg _ _ :: k => FlatAt h k
  | .fin _ _ :: k => FlatAt h k

omit [DecidableEq K] [DecidableEq V] in
theorem lockFree_flat {p : RProg K V} {t : List (ROp K V)} (ht : RTrace p t) : lockFree p = true →
    ∀ h rest, FlatAt h rest → FlatAt h (t ++ rest) := by
  induction ht with
  | skip => intro _ h rest hr; exact hr
  | acc v m => intro _ h rest hr; exact hr
  | under _ _ => intro hf; cases hf
  | seq _ _ ih1 ih2 =>
    intro hf h rest hr
    simp only [lockFree, Bool.and_eq_true] at hf
    rw [List.append_assoc]
    exact ih1 hf.1 h _ (ih2 hf.2 h rest hr)
  | altL _ ih => intro hf; simp only [lockFree, Bool.and_eq_true] at hf; exact ih hf.1
  | altR _ ih => intro hf; simp only [lockFree, Bool.and_eq_true] at hf; exact ih hf.2
  | loopEnd => intro _ h rest hr; exact hr
  | loopMore _ _ ih1 ih2 =>
    intro hf h rest hr
    rw [List.append_assoc]
    exact ih1 hf h _ (ih2 hf h rest hr)

omit [DecidableEq K] [DecidableEq V] in
theorem flatProg_flat {p : RProg K V} {t : List (ROp K V)} (ht : RTrace p t) : flatProg p = true →
    ∀ rest, FlatAt [] rest → FlatAt [] (t ++ rest) := by
  induction ht with
  | skip => intro _ rest hr; exact hr
  | acc v m => intro _ rest hr; exact hr
  | @under l m b t hb _ =>
    intro hf rest hr
    refine ⟨rfl, ?_⟩
    have := lockFree_flat hb hf [(l, m)] (.rel l m :: rest) ⟨rfl, hr⟩
    simpa using this
  | seq _ _ ih1 ih2 =>
    intro hf rest hr
    simp only [flatProg, Bool.and_eq_true] at hf
    rw [List.append_assoc]
    exact ih1 hf.1 _ (ih2 hf.2 rest hr)
  | altL _ ih => intro hf; simp only [flatProg, Bool.and_eq_true] at hf; exact ih hf.1
  | altR _ ih => intro hf; simp only [flatProg, Bool.and_eq_true] at hf; exact ih hf.2
  | loopEnd => intro _ rest hr; exact hr
  | loopMore _ _ ih1 ih2 =>
    intro hf rest hr
    rw [List.append_assoc]
    exact ih1 hf _ (ih2 hf rest hr)

theorem flat_reach {progs : List (RProg K V)} (hg : (progs.all fun p => flatProg p) = true) {ts : List (RThread K V)} (h : RReach progs ts) :
    ∀ t ∈ ts, FlatAt t.held t.todo := by
  induction h with
  | init => intro t ht; cases ht
  | @spawn ts p t _ hp htr ih =>
    intro x hx
    rcases List.mem_append.1 hx with hx | hx
    · exact ih x hx
    · simp only [List.mem_singleton] at hx
      subst hx
      have := flatProg_flat htr (List.all_eq_true.1 hg p hp) [] rfl
      simpa using this
  | @step ts ts' i _ hs ih =>
    obtain ⟨t, t', ht, rfl, hc⟩ := rstep_cases hs
    intro x hx
    rcases List.mem_or_eq_of_mem_set hx with hx | rfl
    · exact ih x hx
    · have hok := ih t (List.mem_of_getElem? ht)
      rcases hc with ⟨l', m', k, hk, _, rfl⟩ | ⟨l', m', k, hk, rfl⟩ | ⟨v', m', k, hk, rfl⟩ | ⟨v', m', k, hk, rfl⟩
      · rw [hk] at hok; simp only [hok.1]; exact hok.2
      · rw [hk] at hok; simp only [hok.1, List.erase_cons_head]; exact hok.2
      · rw [hk] at hok; exact hok
      · rw [hk] at hok; exact hok

/-- Goroutine `i` has a step left that waits for nobody: it takes no lock, or one that no goroutine holds in any mode (so that it
does not matter whom the lock prefers). -/
def FreeToStep (ts : List (RThread K V)) (i : Nat) : Prop :=
  ∃ t op k, ts[i]? = some t ∧ t.todo = op :: k ∧ ∀ l m, op = .acq l m → ∀ u ∈ ts, ∀ m', (l, m') ∉ u.held

theorem FreeToStep.rstep {ts : List (RThread K V)} {i : Nat} (h : FreeToStep ts i) : ∃ ts', rstep ts i = some ts' := by
  obtain ⟨t, op, k, ht, hk, hf⟩ := h
  unfold CTng.rstep
  simp only [ht, hk]
  cases op with
  | acq l m =>
    have hc : canAcq ts l m = true := by
      unfold canAcq
      rw [List.all_eq_true]
      intro u hu
      rw [List.all_eq_true]
      rintro ⟨l', m'⟩ hm
      have : l' ≠ l := by rintro rfl; exact hf l' m rfl u hu m' hm
      simp [this]
    exact ⟨_, if_pos hc⟩
  | rel l m => exact ⟨_, rfl⟩
  | beg v m => exact ⟨_, rfl⟩
  | fin v m => exact ⟨_, rfl⟩

theorem flat_progress {progs : List (RProg K V)} (hg : (progs.all fun p => flatProg p) = true) {ts : List (RThread K V)} (h : RReach progs ts)
    {t : RThread K V} (ht : t ∈ ts) (hne : t.todo ≠ []) : ∃ i, FreeToStep ts i := by
  have hflat := flat_reach hg h
  obtain ⟨i, _, hi⟩ := List.getElem_of_mem ht
  have hi' : ts[i]? = some t := List.getElem?_eq_some_iff.2 ⟨_, hi⟩
  cases hk : t.todo with
  | nil => exact absurd hk hne
  | cons op k =>
    by_cases hop : ∀ l m, op = .acq l m → ∀ u ∈ ts, ∀ m', (l, m') ∉ u.held
    · exact ⟨i, t, op, k, hi', hk, hop⟩
    · -- somebody holds the lock; that goroutine is free to step
      have : ∃ l m', ∃ u ∈ ts, (l, m') ∈ u.held := by
        apply Classical.byContradiction
        intro hno
        apply hop
        intro l m _ u hu m' hm
        exact hno ⟨l, m', u, hu, hm⟩
      obtain ⟨l, m', u, hu, hm⟩ := this
      obtain ⟨j, _, hj⟩ := List.getElem_of_mem hu
      have hj' : ts[j]? = some u := List.getElem?_eq_some_iff.2 ⟨_, hj⟩
      have hfu := hflat u hu
      cases hku : u.todo with
      | nil => rw [hku] at hfu; rw [show u.held = [] from hfu] at hm; cases hm
      | cons op' k' =>
        refine ⟨j, u, op', k', hj', hku, ?_⟩
        intro l' m'' e
        subst e
        rw [hku] at hfu
        rw [hfu.1] at hm
        cases hm

theorem flat_finish {progs : List (RProg K V)} (hg : (progs.all fun p => flatProg p) = true) :
    ∀ (n : Nat) {ts : List (RThread K V)}, RReach progs ts → (ts.map fun t => t.todo.length).sum ≤ n →
      ∃ ts', RSteps ts ts' ∧ ∀ t ∈ ts', t.todo = [] ∧ t.held = [] := by
  have sumset : ∀ (ts : List (RThread K V)) (i : Nat) (t t' : RThread K V), ts[i]? = some t → t'.todo.length + 1 = t.todo.length →
      ((ts.set i t').map fun t => t.todo.length).sum + 1 = (ts.map fun t => t.todo.length).sum := by
    intro ts
    induction ts with
    | nil => intro i t t' h; simp at h
    | cons a r ih =>
      intro i t t' h hl
      cases i with
      | zero =>
        simp only [List.getElem?_cons_zero, Option.some.injEq] at h
        subst h
        simp only [List.set_cons_zero, List.map_cons, List.sum_cons]
        omega
      | succ i =>
        simp only [List.getElem?_cons_succ] at h
        have := ih i t t' h hl
        simp only [List.set_cons_succ, List.map_cons, List.sum_cons]
        omega
  intro n
  induction n with
  | zero =>
    intro ts h hn
    refine ⟨ts, .refl _, ?_⟩
    intro t ht
    have hz : t.todo = [] := by
      cases hk : t.todo with
      | nil => rfl
      | cons op k =>
        exfalso
        have := List.sum_eq_zero_iff_forall_eq_nat.1 (Nat.le_zero.1 hn) _ (List.mem_map_of_mem ht)
        rw [hk] at this
        simp at this
    have hf := flat_reach hg h t ht
    rw [hz] at hf
    exact ⟨hz, hf⟩
  | succ n ih =>
    intro ts h hn
    by_cases hall : ∀ t ∈ ts, t.todo = []
    · refine ⟨ts, .refl _, ?_⟩
      intro t ht
      have hf := flat_reach hg h t ht
      rw [hall t ht] at hf
      exact ⟨hall t ht, hf⟩
    · have : ∃ t ∈ ts, t.todo ≠ [] := by
        apply Classical.byContradiction
        intro hno
        apply hall
        intro t ht
        apply Classical.byContradiction
        intro hne
        exact hno ⟨t, ht, hne⟩
      obtain ⟨t, ht, hne⟩ := this
      obtain ⟨i, hfree⟩ := flat_progress hg h ht hne
      obtain ⟨ts', hs⟩ := hfree.rstep
      have hlt : (ts'.map fun t => t.todo.length).sum + 1 = (ts.map fun t => t.todo.length).sum := by
        obtain ⟨t, t', ht, rfl, hc⟩ := rstep_cases hs
        apply sumset ts i t t' ht
        rcases hc with ⟨l', m', k, hk, _, rfl⟩ | ⟨l', m', k, hk, rfl⟩ | ⟨v', m', k, hk, rfl⟩ | ⟨v', m', k, hk, rfl⟩ <;> rw [hk] <;> rfl
      obtain ⟨ts'', h1, h2⟩ := ih (.step h hs) (by omega)
      exact ⟨ts'', .step hs h1, h2⟩

/-! ### The three servers -/

/-- C128 at a CA: the count of requests is never accessed by two goroutines at once if one of them writes, in any schedule of any
number of requests, tree heads, proofs, starts and ends of periods. -/
theorem C128_ca_counter_partial (ts : List (RThread CALock CAVar)) (h : RReach caProgs ts) : ¬ Race .count ts :=
  guarded_no_race [.count] (by decide +kernel) h

/-- C128 at a logger: between ends of periods the count of requests is accessed by one goroutine at a time. If ends of periods do
not overlap, the duration is too. Missing for the full property: the count during an end of a period. -/
theorem C128_logger_counters_partial (ts : List (RThread LogLock LogVar)) :
    (RReach logHandlers ts → ¬ Race .count ts) ∧ (RReach logProgsApart ts → ¬ Race .online ts) :=
  ⟨guarded_no_race [.count] (by decide +kernel), guarded_no_race [.count, .round] (by decide +kernel)⟩

/-- C128 fails: the end of a logger's period copies the whole context (Logger/server.go:227) without the lock while a request may be
writing the count; and requests at a CA read the duration without the lock while the end of a period writes it. -/
theorem C128_violated_unlocked_reads :
    RaceOf [logRequestSTH] [logRoundAcc] .count ∧ RaceOf [caRound] [caRequestREV] .online :=
  ⟨conflict_race (by decide +kernel), conflict_race (by decide +kernel)⟩

/-- C129 at a CA, what holds: if starts of periods do not overlap each other and ends of periods do not either, the revocation vector,
its flag, the counter of certificates and the keys are accessed by one goroutine at a time. Handlers alone only read the
storage of revocations. -/
theorem C129_ca_private_partial (ts : List (RThread CALock CAVar)) :
    (RReach caProgsApart ts → ∀ v ∈ [CAVar.crv, .fresh, .counter, .keys], ¬ Race v ts) ∧
    (RReach caHandlers ts → ∀ v ∈ [CAVar.rev, .revFake, .online, .pool, .byKey], ¬ Race v ts) := by
  constructor
  · intro h v hv
    simp only [List.mem_cons, List.not_mem_nil, or_false] at hv
    rcases hv with rfl | rfl | rfl | rfl
    · exact guarded_no_race [.round] (by decide +kernel) h
    · exact guarded_no_race [.round] (by decide +kernel) h
    · exact guarded_no_race [.tick] (by decide +kernel) h
    · exact guarded_no_race [.tick] (by decide +kernel) h
  · intro h v hv
    simp only [List.mem_cons, List.not_mem_nil, or_false] at hv
    rcases hv with rfl | rfl | rfl | rfl | rfl <;> exact guarded_no_race [] (by decide +kernel) h

/-- C129 at a logger and a monitor, what holds between ends of periods: requests and certificates at a logger never race, and the
storages of full tree heads and full revocations of a monitor are accessed by one writer or by readers. -/
theorem C129_between_periods_partial (ts : List (RThread LogLock LogVar)) (us : List (RThread MonLock MonVar)) :
    (RReach logHandlers ts → ∀ v, ¬ Race v ts) ∧ (RReach monBetween us → ¬ Race .sthFull us ∧ ¬ Race .revFull us) := by
  constructor
  · intro h v
    cases v
    · exact guarded_no_race [.count] (by decide +kernel) h
    · exact guarded_no_race [.count] (by decide +kernel) h
    · exact guarded_no_race [.count] (by decide +kernel) h
    · exact guarded_no_race [.count] (by decide +kernel) h
    · exact guarded_no_race [.pool] (by decide +kernel) h
    · exact guarded_no_race [.pool] (by decide +kernel) h
    · exact guarded_no_race [.pool] (by decide +kernel) h
    · exact guarded_no_race [] (by decide +kernel) h
  · intro h
    exact ⟨guarded_no_race [.sth] (by decide +kernel) h, guarded_no_race [.rev] (by decide +kernel) h⟩

/-- C129 at a monitor, what holds between ends of periods: no map of objects or vectors is written by two goroutines at once, and
among the handlers of objects and the queries (without the checks before accusations) the storages of objects and proofs
are not read while they are written. Missing for the full property: the maps of new proofs, the checks, the reads of vectors
and the end of a period (C129_violated_monitor). -/
theorem C129_monitor_writes_partial (ts : List (RThread MonLock MonVar)) :
    (RReach monBetween ts → ∀ v ∈ [MonVar.temp, .con, .accu, .sthFull, .revFull, .crv], ¬ WriteRace v ts) ∧
    (RReach [monGossip, monQuery] ts → ∀ v ∈ [MonVar.temp, .con, .accu, .sthFull, .revFull, .crv], ¬ Race v ts) := by
  constructor
  · intro h v hv
    simp only [List.mem_cons, List.not_mem_nil, or_false] at hv
    rcases hv with rfl | rfl | rfl | rfl | rfl | rfl
    · exact guarded_no_writeRace .temp (by decide +kernel) h
    · exact guarded_no_writeRace .con (by decide +kernel) h
    · exact guarded_no_writeRace .accu (by decide +kernel) h
    · exact guarded_no_writeRace .sth (by decide +kernel) h
    · exact guarded_no_writeRace .rev (by decide +kernel) h
    · exact guarded_no_writeRace .crv (by decide +kernel) h
  · intro h v hv
    simp only [List.mem_cons, List.not_mem_nil, or_false] at hv
    rcases hv with rfl | rfl | rfl | rfl | rfl | rfl
    · exact guarded_no_race [.temp] (by decide +kernel) h
    · exact guarded_no_race [.con] (by decide +kernel) h
    · exact guarded_no_race [.accu] (by decide +kernel) h
    · exact guarded_no_race [.sth] (by decide +kernel) h
    · exact guarded_no_race [.rev] (by decide +kernel) h
    · exact guarded_no_race [] (by decide +kernel) h

/-- C129 at a CA, what holds between ends and starts of periods: the storage of tree heads is written by one goroutine at a time, and
the counter of requests is never in a race. -/
theorem C129_ca_writes_partial (ts : List (RThread CALock CAVar)) (h : RReach caHandlers ts) : ¬ WriteRace .sth ts ∧ ¬ Race .count ts :=
  ⟨guarded_no_writeRace .sth (by decide +kernel) h, guarded_no_race [.count] (by decide +kernel) h⟩

/-- C129 fails at a CA: tree heads and proofs race on the storage of tree heads, two proofs on a certificate's extension and on the
list of certificates; the end of a period and a request on the storages of revocations; the start of a period and a proof on
the pool's index and a tree head on the storage of tree heads; the end of a period and a proof on the pool. -/
theorem C129_violated_ca :
    RaceOf [caReceiveSTHAcc] [caReceivePOIAcc] .sth ∧ RaceOf [caReceivePOIAcc] [caReceivePOIAcc] .ext ∧
    RaceOf [caReceivePOIAcc] [caReceivePOIAcc] .certs ∧
    RaceOf [caRound] [caRequestREV] .rev ∧ RaceOf [caRound] [caRequestREV] .revFake ∧
    RaceOf [caTick] [caReceivePOIAcc] .byKey ∧ RaceOf [caRound] [caReceivePOIAcc] .pool ∧ RaceOf [caTick] [caReceiveSTHAcc] .sth :=
  ⟨conflict_race (by decide +kernel), conflict_race (by decide +kernel), conflict_race (by decide +kernel), conflict_race (by decide +kernel),
    conflict_race (by decide +kernel), conflict_race (by decide +kernel), conflict_race (by decide +kernel), conflict_race (by decide +kernel)⟩

/-- C129 fails at a logger: the end of a period races with requests on the storages of tree heads and with arriving certificates on
the pool and its list. -/
theorem C129_violated_logger :
    RaceOf [logRequestSTH] [logRoundAcc] .sth ∧ RaceOf [logRequestSTH] [logRoundAcc] .sthFake ∧
    RaceOf [logReceivePrecert] [logRoundAcc] .certs ∧ RaceOf [logReceivePrecert] [logRoundAcc] .byKey ∧
    RaceOf [logReceivePrecert] [logRoundAcc] .pool :=
  ⟨conflict_race (by decide +kernel), conflict_race (by decide +kernel), conflict_race (by decide +kernel),
    conflict_race (by decide +kernel), conflict_race (by decide +kernel)⟩

/-- C129 fails at a monitor, for every one of its maps: two objects from the gossiper race on the maps of new proofs of misbehaviour;
an object and the check before an accusation on the storages of proofs and of temporary objects; an object and the end of a
period on the full tree heads and revocations, temporary objects and proofs; a query or
the end of a period and the timer after a revocation on the vectors. -/
theorem C129_violated_monitor :
    RaceOf [monGossip] [monGossip] .conDelta ∧ RaceOf [monGossip] [monGossip] .accuDelta ∧
    RaceOf [monGossip] [monAccuse] .con ∧ RaceOf [monGossip] [monAccuse] .accu ∧ RaceOf [monGossip] [monAccuse] .temp ∧
    RaceOf [monGossip] [monRound] .sthFull ∧ RaceOf [monGossip] [monRound] .revFull ∧ RaceOf [monCrvTimer] [monQuery] .crv ∧
    RaceOf [monGossip] [monRound] .temp ∧ RaceOf [monGossip] [monRound] .con ∧ RaceOf [monCrvTimer] [monRound] .crv :=
  ⟨conflict_race (by decide +kernel), conflict_race (by decide +kernel), conflict_race (by decide +kernel),
    conflict_race (by decide +kernel), conflict_race (by decide +kernel), conflict_race (by decide +kernel),
    conflict_race (by decide +kernel), conflict_race (by decide +kernel), conflict_race (by decide +kernel),
    conflict_race (by decide +kernel), conflict_race (by decide +kernel)⟩

/-- No deadlock: while a goroutine has something left to do, some goroutine can do it without waiting, and everything that has been
started can be run to its end, after which no lock is held. -/
def NoDeadlock (progs : List (RProg K V)) : Prop :=
  ∀ ts, RReach progs ts → (∀ t ∈ ts, t.todo ≠ [] → ∃ i, FreeToStep ts i) ∧
    ∃ ts', RSteps ts ts' ∧ ∀ t ∈ ts', t.todo = [] ∧ t.held = []

/-- C130: CA, logger and monitor never deadlock on their locks. -/
theorem C130_no_deadlock : NoDeadlock caProgs ∧ NoDeadlock logProgs ∧ NoDeadlock monProgs :=
  ⟨fun _ h => ⟨fun _ => flat_progress (by decide +kernel) h, flat_finish (by decide +kernel) _ h (Nat.le_refl _)⟩,
    fun _ h => ⟨fun _ => flat_progress (by decide +kernel) h, flat_finish (by decide +kernel) _ h (Nat.le_refl _)⟩,
    fun _ h => ⟨fun _ => flat_progress (by decide +kernel) h, flat_finish (by decide +kernel) _ h (Nat.le_refl _)⟩⟩

/-! ### Concrete cases -/

namespace Ref

/-- A request at a CA that counts and reads nothing else. -/
def countTrace : List (ROp CALock CAVar) :=
  [.acq .count .w, .beg .count .r, .fin .count .r, .beg .count .r, .fin .count .r, .beg .count .w, .fin .count .w, .rel .count .w]

theorem countTrace_trace : RTrace caRequestREV countTrace :=
  .seq (.altR (.under (.seq (.acc _ _) (.seq (.acc _ _) (.acc _ _))))) (.seq (.altL .skip) (.altL .skip))

/-- C128, C130: two requests; the first is in the middle of writing the count, the second waits for the lock, and the state is
reachable. -/
example : RReach caProgs [⟨[.fin .count .w, .rel .count .w], [(.count, .w)], [(.count, .w)]⟩, ⟨countTrace, [], []⟩] ∧
    rstep [⟨[.fin .count .w, .rel .count .w], [(.count, .w)], [(.count, .w)]⟩, ⟨countTrace, [], []⟩] 1 = none := by
  refine ⟨?_, rfl⟩
  have h0 : RReach caProgs [⟨countTrace, [], []⟩, ⟨countTrace, [], []⟩] :=
    RReach.spawn (RReach.spawn .init (p := caRequestREV) (by simp [caProgs, caHandlers]) countTrace_trace) (p := caRequestREV)
      (by simp [caProgs, caHandlers]) countTrace_trace
  exact .step (i := 0) (.step (i := 0) (.step (i := 0) (.step (i := 0) (.step (i := 0) (.step (i := 0) h0 rfl) rfl) rfl) rfl) rfl) rfl

/-- C129: from the empty state, two conflict proofs at a monitor race on the map of new ones. -/
example : ∃ ts : List (RThread MonLock MonVar), RReach monProgs ts ∧ Race .conDelta ts := by
  obtain ⟨p, hp, q, hq, t, u, ht, hu, ts', hs, hr⟩ := C129_violated_monitor.1 [] (by intro t ht; cases ht)
  refine ⟨ts', RReach.steps ?_ hs, hr⟩
  have hm : monGossip ∈ monProgs := by simp [monProgs, monBetween]
  simp only [List.mem_singleton] at hp hq
  subst hp; subst hq
  exact RReach.spawn (RReach.spawn .init hm ht) hm hu

/-- The checks tell programs apart: a request that counted without the lock would race, and two programs that take two locks in
opposite orders are not flat. -/
example : conflictB [caRequestREV] [RProg.acc CAVar.count .w] .count = true ∧
    guardedB .count (coveredB [CALock.count]) [] (RProg.acc CAVar.count .w) = false ∧
    flatProg (RProg.under CALock.count .w (.under CALock.sth .w (.acc CAVar.count .w))) = false := by decide +kernel

end Ref

end CTng
