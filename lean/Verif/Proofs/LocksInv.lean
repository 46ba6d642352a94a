import Verif.Proofs.Locks
/- The lock-level gossiper refines the coarse one as long as no wipe meets a held lock. -/
set_option autoImplicit false

namespace CTng
namespace Locks

/-- A share in a lock: a reader, a waiting writer, a writer. -/
inductive Tok where
  | rd | an | wr
  deriving DecidableEq

/-- The share of a held lock. -/
def tokOf (p : LockName × Bool) : LockName × Tok := (p.1, if p.2 then .wr else .rd)

/-- The share of a waiting writer. -/
def annTok : Bool → List (LockName × Bool) → List (LockName × Tok)
  | true, (l, _) :: _ => [(l, .an)]
  | _, _ => []

/-- The shares of a goroutine. -/
def Phase.toks : Phase → List (LockName × Tok)
  | .idle => []
  | .sec _ held todo ann _ _ => held.map tokOf ++ annTok ann todo
  | .rel held => held.map tokOf

/-- How many goroutines have a share. -/
def tot (k : LockName × Tok) (ts : List LThread) : Nat := (ts.map fun t => t.phase.toks.count k).sum

theorem tot_set {ts : List LThread} {i : Nat} {t : LThread} (h : ts[i]? = some t) (t' : LThread) (k : LockName × Tok) :
    tot k (ts.set i t') + t.phase.toks.count k = tot k ts + t'.phase.toks.count k := by
  induction ts generalizing i with
  | nil => simp at h
  | cons a as ih =>
    cases i with
    | zero =>
      simp only [List.getElem?_cons_zero, Option.some.injEq] at h; subst h
      simp only [tot, List.set_cons_zero, List.map_cons, List.sum_cons]; omega
    | succ i =>
      simp only [List.getElem?_cons_succ] at h
      have := ih h
      simp only [tot, List.set_cons_succ, List.map_cons, List.sum_cons] at this ⊢; omega

theorem tot_append (ts : List LThread) (t : LThread) (k : LockName × Tok) :
    tot k (ts ++ [t]) = tot k ts + t.phase.toks.count k := by simp [tot]

theorem tot_ge {ts : List LThread} {i : Nat} {t : LThread} (h : ts[i]? = some t) (k : LockName × Tok) :
    t.phase.toks.count k ≤ tot k ts := by
  induction ts generalizing i with
  | nil => simp at h
  | cons a as ih =>
    cases i with
    | zero =>
      simp only [List.getElem?_cons_zero, Option.some.injEq] at h; subst h
      simp only [tot, List.map_cons, List.sum_cons]; omega
    | succ i =>
      simp only [List.getElem?_cons_succ] at h
      have := ih h
      simp only [tot, List.map_cons, List.sum_cons] at this ⊢; omega

theorem tot_ge2 {ts : List LThread} {i j : Nat} {t u : LThread} (hi : ts[i]? = some t) (hj : ts[j]? = some u)
    (hij : i ≠ j) (k : LockName × Tok) : t.phase.toks.count k + u.phase.toks.count k ≤ tot k ts := by
  induction ts generalizing i j with
  | nil => simp at hi
  | cons a as ih =>
    cases i with
    | zero =>
      cases j with
      | zero => exact absurd rfl hij
      | succ j =>
        simp only [List.getElem?_cons_zero, Option.some.injEq] at hi; subst hi
        simp only [List.getElem?_cons_succ] at hj
        have := tot_ge hj k
        simp only [tot, List.map_cons, List.sum_cons] at this ⊢; omega
    | succ i =>
      cases j with
      | zero =>
        simp only [List.getElem?_cons_zero, Option.some.injEq] at hj; subst hj
        simp only [List.getElem?_cons_succ] at hi
        have := tot_ge hi k
        simp only [tot, List.map_cons, List.sum_cons] at this ⊢; omega
      | succ j =>
        simp only [List.getElem?_cons_succ] at hi hj
        have := ih hi hj (by omega)
        simp only [tot, List.map_cons, List.sum_cons] at this ⊢; omega

theorem tot_pos {ts : List LThread} {k : LockName × Tok} (h : 0 < tot k ts) :
    ∃ (i : Nat) (t : LThread), ts[i]? = some t ∧ k ∈ t.phase.toks := by
  induction ts with
  | nil => simp [tot] at h
  | cons a as ih =>
    by_cases hk : 0 < a.phase.toks.count k
    · exact ⟨0, a, rfl, List.count_pos_iff.1 hk⟩
    · have : 0 < tot k as := by
        simp only [tot, List.map_cons, List.sum_cons] at h ⊢; omega
      obtain ⟨i, t, hi, ht⟩ := ih this
      exact ⟨i + 1, t, hi, ht⟩

/-- A lock and the numbers of readers, waiting writers and writers. -/
def LockOk (rw : RW) (r a w : Nat) : Prop :=
  rw.readers = r ∧
  match rw.w with
  | .free => a = 0 ∧ w = 0
  | .announced => a = 1 ∧ w = 0
  | .held => a = 0 ∧ w = 1 ∧ r = 0

/-- The locks are what the goroutines say. -/
def Cnt (lk : LockTab) (ts : List LThread) : Prop :=
  ∀ l, LockOk (lk l) (tot (l, .rd) ts) (tot (l, .an) ts) (tot (l, .wr) ts)

theorem Cnt.step {lk : LockTab} {ts : List LThread} {i : Nat} {t t' : LThread} {l : LockName} {rw : RW}
    (hc : Cnt lk ts) (h : ts[i]? = some t)
    (hne : ∀ l' x, l' ≠ l → t'.phase.toks.count (l', x) = t.phase.toks.count (l', x))
    (hl : LockOk rw (tot (l, .rd) (ts.set i t')) (tot (l, .an) (ts.set i t')) (tot (l, .wr) (ts.set i t'))) :
    Cnt (lk.set l rw) (ts.set i t') := by
  intro l'
  by_cases e : l' = l
  · subst e; simpa [LockTab.set] using hl
  · have h1 := tot_set h t' (l', .rd)
    have h2 := tot_set h t' (l', .an)
    have h3 := tot_set h t' (l', .wr)
    have g1 := hne l' .rd e
    have g2 := hne l' .an e
    have g3 := hne l' .wr e
    have e1 : tot (l', .rd) (ts.set i t') = tot (l', .rd) ts := by omega
    have e2 : tot (l', .an) (ts.set i t') = tot (l', .an) ts := by omega
    have e3 : tot (l', .wr) (ts.set i t') = tot (l', .wr) ts := by omega
    have := hc l'
    simp only [LockTab.set, e, if_false, e1, e2, e3]
    exact this

theorem Cnt.same {lk : LockTab} {ts : List LThread} {i : Nat} {t t' : LThread} (hc : Cnt lk ts) (h : ts[i]? = some t)
    (he : ∀ k, t'.phase.toks.count k = t.phase.toks.count k) : Cnt lk (ts.set i t') := by
  intro l'
  have h1 := tot_set h t' (l', .rd)
  have h2 := tot_set h t' (l', .an)
  have h3 := tot_set h t' (l', .wr)
  rw [he] at h1 h2 h3
  have e1 : tot (l', .rd) (ts.set i t') = tot (l', .rd) ts := by omega
  have e2 : tot (l', .an) (ts.set i t') = tot (l', .an) ts := by omega
  have e3 : tot (l', .wr) (ts.set i t') = tot (l', .wr) ts := by omega
  rw [e1, e2, e3]; exact hc l'

/-- Whatever the maps outside `H` contain, the accesses left give the answer of the whole section. -/
def Follows (H : List (LockName × Bool)) (g : GState) (b0 b : Body) : Prop :=
  ∀ g' clk, (∀ p ∈ H, load g' p.1 = load g p.1) → evalBody clk b0 g' = evalBody clk b g'

section
variable {L : Lib}

/-- A goroutine in a section. -/
def ThrOk (cf : GConf L) (g : GState) (t : LThread) : Prop :=
  match t.phase with
  | .sec f held todo ann b busy =>
    f ≠ .pt .wipe ∧ held ++ todo = (secOf cf f).locks ∧ (ann = true → ∃ l r, todo = (l, true) :: r) ∧
    (todo ≠ [] → busy = false ∧ b = (secOf cf f).body) ∧
    Follows held g (secOf cf f).body b ∧ BodyOk (decide (f = .pt .save)) (secOf cf f).locks b
  | _ => True

/-- The invariant. -/
structure LInv (cf : GConf L) (s : LState) : Prop where
  thr : ∀ t ∈ s.threads, ThrOk cf s.g t
  cnt : Cnt s.lk s.threads
  nofatal : s.fatal = false

/-- The goroutine in the coarse model: a section counts as not begun until its last access. -/
def LThread.abs (t : LThread) : Thread :=
  ⟨(match t.phase with | .sec f _ _ _ _ _ => [f.abs] | _ => []) ++ t.frames.map LFrame.abs, t.fatal⟩

/-- The coarse state. -/
def LState.abs (s : LState) : CState := ⟨s.g, s.threads.map LThread.abs⟩

/-- No goroutine holds a lock or waits to write. -/
def Quiet (s : LState) : Prop := ∀ t ∈ s.threads, t.phase.toks = []

/-- The goroutine is about to execute `WipeStorage`. -/
def LThread.wiping (t : LThread) : Prop := t.phase = .idle ∧ t.frames.head? = some (.pt .wipe)

theorem load_put_ne (g : GState) (m m' : LockName) (v : Val m) (h : m' ≠ m) : load (put g m v) m' = load g m' := by
  cases m with
  | obj a =>
    cases m' with
    | obj b => cases a <;> cases b <;> first | rfl | exact absurd rfl h
    | frag b => cases a <;> rfl
    | blacklist => rfl
  | frag a =>
    cases m' with
    | obj b => cases a <;> rfl
    | frag b => cases a <;> cases b <;> first | rfl | exact absurd rfl h
    | blacklist => rfl
  | blacklist =>
    cases m' with
    | obj b => rfl
    | frag b => rfl
    | blacklist => exact absurd rfl h

theorem save_maps (clk : Clock) (g : GState) : (save clk g).storage = g.storage ∧ (save clk g).blacklist = g.blacklist := by
  unfold save
  simp only
  split <;> exact ⟨rfl, rfl⟩

theorem load_congr {g g' : GState} (h1 : g'.storage = g.storage) (h2 : g'.blacklist = g.blacklist) (m : LockName) :
    load g' m = load g m := by
  cases m <;> simp only [load, h1, h2]

theorem load_apply (u : Upd) (clk : Clock) (g : GState) (m : LockName) : load (u.apply clk g) m = load g m := by
  apply load_congr
  · unfold Upd.apply; simp only; split
    · exact (save_maps _ _).1
    · rfl
  · unfold Upd.apply; simp only; split
    · exact (save_maps _ _).2
    · rfl

/-- What a step of goroutine `t` (number `i`) may do. -/
def StepOk (cf : GConf L) (clk : Clock) (s : LState) (i : Nat) (t : LThread) (g' : GState) (lk' : LockTab)
    (t' : LThread) : Prop :=
  Cnt lk' (s.threads.set i t') ∧ ThrOk cf g' t' ∧
  (∀ m, load g' m ≠ load s.g m → (m, Tok.wr) ∈ t.phase.toks) ∧
  ((g' = s.g ∧ t'.abs = t.abs) ∨ stepThread cf clk s.g t.abs = (g', t'.abs))

theorem commit_ok {cf : GConf L} {s : LState} {i : Nat} {t : LThread} (clk : Clock) (hI : LInv cf s)
    (ht : s.threads[i]? = some t) {f : LFrame} {held : List (LockName × Bool)} {b : Body} {busy : Bool}
    (hp : t.phase = .sec f held [] false b busy) (hf : f ≠ .pt .wipe) (a : Ans) (g1 : GState)
    (he : evalBody clk (secOf cf f).body s.g = (a.upd.apply clk g1, a.next))
    (hload : ∀ m, load g1 m ≠ load s.g m → (m, Tok.wr) ∈ t.phase.toks) :
    ∃ g' lk' t', commit clk a g1 s.lk t held = .ok g' lk' t' ∧ StepOk cf clk s i t g' lk' t' := by
  have hcnt : ∀ fr k, (({ t with frames := fr, phase := .rel held.reverse } : LThread).phase.toks).count k =
      t.phase.toks.count k := by
    intro fr k
    simp only [hp, Phase.toks, annTok, List.append_nil, List.map_reverse, List.count_reverse]
  have habs : t.abs = ⟨f.abs :: t.frames.map LFrame.abs, t.fatal⟩ := by simp [LThread.abs, hp]
  unfold commit
  cases hn : a.next with
  | some new =>
    refine ⟨_, _, _, rfl, hI.cnt.same ht (hcnt _), trivial, ?_, ?_⟩
    · intro m hm; rw [load_apply] at hm; exact hload m hm
    · rcases sec_spec cf clk s.g f hf with h | ⟨x, h1, h2⟩
      · right
        rw [habs]
        simp only [stepThread, h, he, hn, absRes, Option.map_some]
        simp [LThread.abs]
      · left
        rw [he] at h1
        simp only [Prod.mk.injEq, hn, Option.some.injEq] at h1
        refine ⟨h1.1, ?_⟩
        rw [habs]
        simp [LThread.abs, h1.2, h2]
  | none =>
    refine ⟨_, _, _, rfl, hI.cnt.same ht (hcnt _), trivial, ?_, ?_⟩
    · intro m hm
      have : load (if t.fatal = true then { a.upd.apply clk g1 with crashed := true } else a.upd.apply clk g1) m =
          load (a.upd.apply clk g1) m := by
        split
        · exact load_congr rfl rfl m
        · rfl
      rw [this, load_apply] at hm; exact hload m hm
    · rcases sec_spec cf clk s.g f hf with h | ⟨x, h1, h2⟩
      · right
        rw [habs]
        simp only [stepThread, h, he, hn, absRes, Option.map_none]
        simp [LThread.abs]
      · rw [he] at h1
        simp only [Prod.mk.injEq, hn] at h1
        exact absurd h1.2 (by simp)

/-- One step of a goroutine: it is blocked, or it keeps the invariant, changes only maps whose write lock it holds, and does
nothing or exactly the step of the coarse model. -/
theorem run_ok {cf : GConf L} {s : LState} {i : Nat} {t : LThread} (clk : Clock) (hI : LInv cf s)
    (ht : s.threads[i]? = some t) (hw : ¬ t.wiping) :
    tstep cf clk s.g s.lk t = .blocked ∨ ∃ g' lk' t', tstep cf clk s.g s.lk t = .ok g' lk' t' ∧
      StepOk cf clk s i t g' lk' t' := by
  have hT := hI.thr t (List.mem_of_getElem? ht)
  have hC := hI.cnt
  unfold tstep
  cases hp : t.phase with
  | idle =>
    simp only
    cases hfr : t.frames with
    | nil => exact .inl rfl
    | cons f fs =>
      right
      have hf : f ≠ .pt .wipe := by
        intro e; subst e
        exact hw ⟨hp, by rw [hfr]; rfl⟩
      split
      · rename_i h; cases h
      · rename_i h; cases h; exact absurd rfl hf
      · rename_i h; cases h
        refine ⟨_, _, _, rfl, hC.same ht ?_, ?_, fun m hm => absurd rfl hm, .inl ⟨rfl, ?_⟩⟩
        · intro k; simp [hp, Phase.toks, annTok]
        · refine ⟨hf, by simp, by simp, fun _ => ⟨rfl, rfl⟩, fun _ _ _ => rfl, (secOf_ok cf f).2⟩
        · simp [LThread.abs, hp, hfr]
  | rel held =>
    cases held with
    | nil =>
      right
      refine ⟨_, _, _, rfl, hC.same ht ?_, trivial, fun m hm => absurd rfl hm, .inl ⟨rfl, ?_⟩⟩
      · intro k; simp [hp, Phase.toks]
      · simp [LThread.abs, hp]
    | cons p held =>
      obtain ⟨l, c⟩ := p
      have hg := hC l
      cases c with
      | true =>
        have h1 := tot_ge ht (l, .wr)
        simp only [hp, Phase.toks, List.map_cons, tokOf, if_true, List.count_cons_self] at h1
        have hw : (s.lk l).w = .held := by
          unfold LockOk at hg
          cases hw : (s.lk l).w <;> rw [hw] at hg <;> first | rfl | (simp only at hg; omega)
        right
        simp only [hw, if_true]
        refine ⟨_, _, _, rfl, hC.step ht ?_ ?_, trivial, fun m hm => absurd rfl hm, .inl ⟨rfl, ?_⟩⟩
        · intro l' x hl
          simp [hp, Phase.toks, tokOf, List.count_cons, Ne.symm hl]
        · unfold LockOk at hg ⊢
          rw [hw] at hg
          have e1 := tot_set ht { t with phase := .rel held } (l, .rd)
          have e2 := tot_set ht { t with phase := .rel held } (l, .an)
          have e3 := tot_set ht { t with phase := .rel held } (l, .wr)
          simp only [hp, Phase.toks, List.map_cons, tokOf, List.count_cons] at e1 e2 e3
          simp at e1 e2 e3 hg ⊢
          omega
        · simp [LThread.abs, hp]
      | false =>
        have h1 := tot_ge ht (l, .rd)
        simp only [hp, Phase.toks, List.map_cons, tokOf, List.count_cons, Bool.false_eq_true, if_false] at h1
        have hr : 0 < (s.lk l).readers := by
          rw [hg.1]; simp at h1; omega
        right
        simp only [hr, if_true]
        refine ⟨_, _, _, rfl, hC.step ht ?_ ?_, trivial, fun m hm => absurd rfl hm, .inl ⟨rfl, ?_⟩⟩
        · intro l' x hl
          simp [hp, Phase.toks, tokOf, List.count_cons, Ne.symm hl]
        · unfold LockOk at hg ⊢
          have e1 := tot_set ht { t with phase := .rel held } (l, .rd)
          have e2 := tot_set ht { t with phase := .rel held } (l, .an)
          have e3 := tot_set ht { t with phase := .rel held } (l, .wr)
          simp only [hp, Phase.toks, List.map_cons, tokOf, List.count_cons] at e1 e2 e3
          simp at e1 e2 e3 hg ⊢
          cases hw : (s.lk l).w <;> simp only [hw] at hg ⊢ <;> omega
        · simp [LThread.abs, hp]
  | sec f held todo ann b busy =>
    simp only [ThrOk, hp] at hT
    obtain ⟨hf, hlocks, hann, htodo, hfol, hbody⟩ := hT
    cases todo with
    | nil =>
      have hann' : ann = false := by
        cases ann with
        | false => rfl
        | true => obtain ⟨l, r, h⟩ := hann rfl; cases h
      subst hann'
      simp only [List.append_nil] at hlocks
      have hev : evalBody clk (secOf cf f).body s.g = evalBody clk b s.g := hfol s.g clk fun _ _ => rfl
      cases b with
      | ret r =>
        right
        exact commit_ok clk hI ht hp hf (r clk) s.g hev fun m hm => absurd rfl hm
      | peek m r =>
        right
        exact commit_ok clk hI ht hp hf (r (load s.g m) clk) s.g hev fun m hm => absurd rfl hm
      | read m k =>
        right
        cases busy with
        | false =>
          refine ⟨_, _, _, rfl, hC.same ht ?_, ?_, fun m hm => absurd rfl hm, .inl ⟨rfl, ?_⟩⟩
          · intro k; simp [hp, Phase.toks]
          · exact ⟨hf, by simpa using hlocks, by simp, by simp, hfol, hbody⟩
          · simp [LThread.abs, hp]
        | true =>
          refine ⟨_, _, _, rfl, hC.same ht ?_, ?_, fun m hm => absurd rfl hm, .inl ⟨rfl, ?_⟩⟩
          · intro k; simp [hp, Phase.toks, annTok]
          · refine ⟨hf, by simpa using hlocks, by simp, by simp, ?_, hbody.2 _⟩
            intro g' clk' hg'
            rw [hfol g' clk' hg']
            simp only [evalBody]
            rcases hbody.1 with ⟨c, hc⟩ | ⟨_, hk⟩
            · rw [← hlocks] at hc
              rw [hg' _ hc]
            · rw [hk (load g' m) (load s.g m)]
          · simp [LThread.abs, hp]
      | write m w r =>
        right
        cases busy with
        | false =>
          refine ⟨_, _, _, rfl, hC.same ht ?_, ?_, fun m hm => absurd rfl hm, .inl ⟨rfl, ?_⟩⟩
          · intro k; simp [hp, Phase.toks]
          · exact ⟨hf, by simpa using hlocks, by simp, by simp, hfol, hbody⟩
          · simp [LThread.abs, hp]
        | true =>
          refine commit_ok clk hI ht hp hf (r clk) (put s.g m (w (load s.g m))) hev fun m' hm' => ?_
          have e : m' = m := by
            by_cases e : m' = m
            · exact e
            · exact absurd (load_put_ne _ _ _ _ e) hm'
          subst e
          have : (m', true) ∈ held := by rw [hlocks]; exact hbody
          rw [hp]
          simp only [Phase.toks, annTok, List.append_nil]
          exact List.mem_map.2 ⟨_, this, rfl⟩
    | cons p todo =>
      obtain ⟨l, c⟩ := p
      obtain ⟨hbusy, hb⟩ := htodo (by simp)
      subst hbusy; subst hb
      have hg := hC l
      cases c with
      | false =>
        have hann' : ann = false := by
          cases ann with
          | false => rfl
          | true => obtain ⟨l, r, h⟩ := hann rfl; cases h
        subst hann'
        simp only
        by_cases hw : (s.lk l).w = .free
        · right
          simp only [hw, if_true]
          refine ⟨_, _, _, rfl, hC.step ht ?_ ?_, ?_, fun m hm => absurd rfl hm, .inl ⟨rfl, ?_⟩⟩
          · intro l' x hl
            simp [hp, Phase.toks, tokOf, List.count_cons, annTok, Ne.symm hl]
          · unfold LockOk at hg ⊢
            have e1 := tot_set ht { t with phase := .sec f (held ++ [(l, false)]) todo false (secOf cf f).body false } (l, .rd)
            have e2 := tot_set ht { t with phase := .sec f (held ++ [(l, false)]) todo false (secOf cf f).body false } (l, .an)
            have e3 := tot_set ht { t with phase := .sec f (held ++ [(l, false)]) todo false (secOf cf f).body false } (l, .wr)
            simp only [hp, Phase.toks, List.map_append, List.map_cons, List.map_nil, tokOf, List.count_append,
              List.count_cons, annTok] at e1 e2 e3
            simp at e1 e2 e3 hg ⊢
            rw [hw] at hg
            simp only at hg ⊢
            omega
          · exact ⟨hf, by simpa using hlocks, by simp, fun _ => ⟨rfl, rfl⟩, fun _ _ _ => rfl, hbody⟩
          · simp [LThread.abs, hp]
        · left; simp only [hw, if_false]
      | true =>
        cases ann with
        | false =>
          simp only
          by_cases hw : (s.lk l).w = .free
          · right
            simp only [hw, if_true]
            refine ⟨_, _, _, rfl, hC.step ht ?_ ?_, ?_, fun m hm => absurd rfl hm, .inl ⟨rfl, ?_⟩⟩
            · intro l' x hl
              simp [hp, Phase.toks, tokOf, List.count_cons, annTok, Ne.symm hl]
            · unfold LockOk at hg ⊢
              have e1 := tot_set ht { t with phase := .sec f held ((l, true) :: todo) true (secOf cf f).body false } (l, .rd)
              have e2 := tot_set ht { t with phase := .sec f held ((l, true) :: todo) true (secOf cf f).body false } (l, .an)
              have e3 := tot_set ht { t with phase := .sec f held ((l, true) :: todo) true (secOf cf f).body false } (l, .wr)
              simp only [hp, Phase.toks, List.count_append, List.count_cons, annTok] at e1 e2 e3
              simp at e1 e2 e3 hg ⊢
              rw [hw] at hg
              simp only at hg ⊢
              omega
            · exact ⟨hf, by simpa using hlocks, by simp, fun _ => ⟨rfl, rfl⟩, fun _ _ _ => rfl, hbody⟩
            · simp [LThread.abs, hp]
          · left; simp only [hw, if_false]
        | true =>
          simp only
          by_cases hr : (s.lk l).readers = 0
          · right
            simp only [hr, if_true]
            have h1 := tot_ge ht (l, .an)
            simp only [hp, Phase.toks, annTok, List.count_append, List.count_cons] at h1
            refine ⟨_, _, _, rfl, hC.step ht ?_ ?_, ?_, fun m hm => absurd rfl hm, .inl ⟨rfl, ?_⟩⟩
            · intro l' x hl
              simp [hp, Phase.toks, tokOf, List.count_cons, annTok, Ne.symm hl]
            · unfold LockOk at hg ⊢
              have e1 := tot_set ht { t with phase := .sec f (held ++ [(l, true)]) todo false (secOf cf f).body false } (l, .rd)
              have e2 := tot_set ht { t with phase := .sec f (held ++ [(l, true)]) todo false (secOf cf f).body false } (l, .an)
              have e3 := tot_set ht { t with phase := .sec f (held ++ [(l, true)]) todo false (secOf cf f).body false } (l, .wr)
              simp only [hp, Phase.toks, List.map_append, List.map_cons, List.map_nil, tokOf, List.count_append,
                List.count_cons, annTok] at e1 e2 e3
              simp at e1 e2 e3 hg h1 ⊢
              cases hw : (s.lk l).w <;> rw [hw] at hg <;> simp only at hg ⊢ <;> omega
            · exact ⟨hf, by simpa using hlocks, by simp, fun _ => ⟨rfl, rfl⟩, fun _ _ _ => rfl, hbody⟩
            · simp [LThread.abs, hp]
          · left; simp only [hr, if_false]

/-- A writer is alone. -/
theorem Cnt.excl {lk : LockTab} {ts : List LThread} (hc : Cnt lk ts) {i j : Nat} {t u : LThread} (hi : ts[i]? = some t)
    (hj : ts[j]? = some u) (hij : i ≠ j) {l : LockName} (hw : (l, Tok.wr) ∈ t.phase.toks) :
    (l, Tok.rd) ∉ u.phase.toks ∧ (l, Tok.wr) ∉ u.phase.toks := by
  have h := hc l
  have h0 := tot_ge hi (l, .wr)
  have h1 := tot_ge hj (l, .rd)
  have h2 := tot_ge2 hi hj hij (l, .wr)
  have hp := List.count_pos_iff.2 hw
  unfold LockOk at h
  have hx : tot (l, .rd) ts = 0 ∧ tot (l, .wr) ts = 1 := by
    cases hw : (lk l).w <;> rw [hw] at h <;> simp only at h <;> omega
  constructor
  · intro hm
    have := List.count_pos_iff.2 hm; omega
  · intro hm
    have := List.count_pos_iff.2 hm; omega

theorem ThrOk.other {cf : GConf L} {g g' : GState} {u : LThread} (h : ThrOk cf g u)
    (hl : ∀ m, load g' m ≠ load g m → (m, Tok.rd) ∉ u.phase.toks ∧ (m, Tok.wr) ∉ u.phase.toks) : ThrOk cf g' u := by
  unfold ThrOk at *
  cases hp : u.phase with
  | idle => trivial
  | rel held => trivial
  | sec f held todo ann b busy =>
    rw [hp] at h
    obtain ⟨h1, h2, h3, h4, h5, h6⟩ := h
    refine ⟨h1, h2, h3, h4, ?_, h6⟩
    intro g'' clk hg
    apply h5 g'' clk
    intro p hpm
    rw [hg p hpm]
    cases Classical.em (load g' p.1 = load g p.1) with
    | inl e => exact e
    | inr e =>
      have := hl _ e
      rw [hp] at this
      have hmem : tokOf p ∈ (Phase.sec f held todo ann b busy).toks :=
        List.mem_append_left _ (List.mem_map.2 ⟨p, hpm, rfl⟩)
      unfold tokOf at hmem
      cases hb : p.2
      · rw [hb] at hmem; exact absurd hmem this.1
      · rw [hb] at hmem; exact absurd hmem this.2

theorem mem_set_or {α : Type} {l : List α} {i : Nat} {a x : α} (h : x ∈ l.set i a) :
    x = a ∨ ∃ j : Nat, j ≠ i ∧ l[j]? = some x := by
  obtain ⟨j, hj⟩ := List.getElem?_of_mem h
  by_cases e : i = j
  · subst e
    rw [List.getElem?_set] at hj
    split at hj
    · split at hj
      · cases hj; exact .inl rfl
      · cases hj
    · exact absurd rfl ‹_›
  · rw [List.getElem?_set_ne e] at hj
    exact .inr ⟨j, Ne.symm e, hj⟩

theorem toks_idle {t : LThread} (h : t.phase = .idle) : t.phase.toks = [] := by rw [h]; rfl

/-- The invariant is kept by a step of a goroutine. -/
theorem LInv.step {cf : GConf L} {s : LState} (clk : Clock) {i : Nat} {t : LThread} {g' : GState} {lk' : LockTab}
    {t' : LThread} (hI : LInv cf s) (ht : s.threads[i]? = some t) (h : StepOk cf clk s i t g' lk' t') :
    LInv cf { s with g := g', lk := lk', threads := s.threads.set i t' } := by
  obtain ⟨h1, h2, h3, _⟩ := h
  refine ⟨?_, h1, hI.nofatal⟩
  intro u hu
  rcases mem_set_or hu with rfl | ⟨j, hj, hju⟩
  · exact h2
  · exact (hI.thr u (List.mem_of_getElem? hju)).other fun m hm => hI.cnt.excl ht hju (Ne.symm hj) (h3 m hm)

/-- A wipe while no lock is held keeps the invariant. -/
theorem LInv.wipe {cf : GConf L} {s : LState} {i : Nat} {t : LThread} (hI : LInv cf s) (ht : s.threads[i]? = some t)
    (hw : t.wiping) (hq : Quiet s) (fs : List LFrame) :
    LInv cf { s with g := wipeStorage s.g, lk := fun _ => .zero,
                     threads := s.threads.set i { t with frames := fs } } := by
  have hz : ∀ (ts : List LThread), (∀ u ∈ ts, u.phase.toks = []) → ∀ k, tot k ts = 0 := by
    intro ts hts k
    induction ts with
    | nil => rfl
    | cons a as ih =>
      simp only [tot, List.map_cons, List.sum_cons, hts a (by simp), List.count_nil, Nat.zero_add]
      exact ih fun u hu => hts u (List.mem_cons_of_mem _ hu)
  have hq' : ∀ u ∈ s.threads.set i { t with frames := fs }, u.phase.toks = [] := by
    intro u hu
    rcases mem_set_or hu with rfl | ⟨j, _, hju⟩
    · exact toks_idle hw.1
    · exact hq u (List.mem_of_getElem? hju)
  refine ⟨?_, ?_, hI.nofatal⟩
  · intro u hu
    rcases mem_set_or hu with rfl | ⟨j, _, hju⟩
    · have := hw.1
      simp only [ThrOk, this]
    · refine (hI.thr u (List.mem_of_getElem? hju)).other fun m _ => ?_
      rw [hq u (List.mem_of_getElem? hju)]
      exact ⟨by simp, by simp⟩
  · intro l
    simp only [hz _ hq']
    exact ⟨rfl, rfl, rfl⟩

/-- The event is a wipe that is actually executed. -/
def wipes (s : LState) (e : Clock × CEvent) : Prop :=
  s.g.crashed = false ∧ s.fatal = false ∧ ∃ (i : Nat) (t : LThread), e.2 = .run i ∧ s.threads[i]? = some t ∧ t.wiping

/-- Every wipe of the schedule happens while no lock is held or awaited by a writer. -/
def Calm (cf : GConf L) : LState → List (Clock × CEvent) → Prop
  | _, [] => True
  | s, e :: h => (wipes s e → Quiet s) ∧ Calm cf (lstep cf s e) h

theorem abs_append (ts : List LThread) (f : Frame) (b : Bool) :
    (ts ++ [newThread f b]).map LThread.abs = ts.map LThread.abs ++ [⟨[f], b⟩] := by
  simp [newThread, LThread.abs, LFrame.abs]

theorem LInv.spawn {cf : GConf L} {s : LState} (hI : LInv cf s) (g : GState) (hg : g.storage = s.g.storage)
    (hb : g.blacklist = s.g.blacklist) (t : LThread) (ht : t.phase = .idle) :
    LInv cf { s with g := g, threads := s.threads ++ [t] } := by
  refine ⟨?_, ?_, hI.nofatal⟩
  · intro u hu
    rcases List.mem_append.1 hu with hu | hu
    · exact (hI.thr u hu).other fun m hm => absurd (load_congr hg hb m) hm
    · simp only [List.mem_singleton] at hu; subst hu
      simp only [ThrOk, ht]
  · intro l
    simp only [tot_append, toks_idle ht, List.count_nil, Nat.add_zero]
    exact hI.cnt l

/-- One event of a calm schedule: the invariant is kept, and the coarse model does the same event or nothing. -/
theorem lstep_ok {cf : GConf L} {s : LState} (hI : LInv cf s) (e : Clock × CEvent) (hw : wipes s e → Quiet s) :
    LInv cf (lstep cf s e) ∧ ((lstep cf s e).abs = s.abs ∨ (lstep cf s e).abs = cstep cf s.abs e) := by
  obtain ⟨clk, e⟩ := e
  unfold lstep cstep
  have hgf : (s.g.crashed || s.fatal) = s.g.crashed := by rw [hI.nofatal, Bool.or_false]
  rw [hgf]
  cases hcr : s.g.crashed with
  | true => simp [LState.abs, hcr, hI]
  | false =>
    have hcr' : s.abs.g.crashed = false := hcr
    simp only [hcr', Bool.false_eq_true, if_false]
    cases e with
    | recv n o => exact ⟨hI.spawn s.g rfl rfl _ rfl, .inr (by simp only [LState.abs, abs_append])⟩
    | notify n o => exact ⟨hI.spawn s.g rfl rfl _ rfl, .inr (by simp only [LState.abs, abs_append])⟩
    | request n o => exact ⟨hI.spawn s.g rfl rfl _ rfl, .inr (by simp only [LState.abs, abs_append])⟩
    | fire i =>
      simp only
      have e0 : s.abs.g.timers[i]? = s.g.timers[i]? := rfl
      rw [e0]
      cases s.g.timers[i]? with
      | none => exact ⟨hI, .inl rfl⟩
      | some o =>
        exact ⟨hI.spawn { s.g with timers := s.g.timers.eraseIdx i } rfl rfl _ rfl,
          .inr (by simp [LState.abs, hcr, newThread, LThread.abs, LFrame.abs])⟩
    | periodic =>
      exact ⟨hI.spawn s.g rfl rfl _ rfl, .inr (by simp [LState.abs, LThread.abs, LFrame.abs])⟩
    | run i =>
      simp only
      have e0 : s.abs.threads[i]? = (s.threads[i]?).map LThread.abs := by simp [LState.abs]
      rw [e0]
      cases ht : s.threads[i]? with
      | none => exact ⟨hI, .inl rfl⟩
      | some t =>
        simp only [Option.map_some]
        cases Classical.em t.wiping with
        | inl hwt =>
          have hq := hw ⟨hcr, hI.nofatal, i, t, rfl, ht, hwt⟩
          have hwt' := hwt
          obtain ⟨hp, hh⟩ := hwt'
          cases hfr : t.frames with
          | nil => rw [hfr] at hh; cases hh
          | cons f fs =>
            rw [hfr] at hh
            simp only [List.head?_cons, Option.some.injEq] at hh
            subst hh
            have ets : tstep cf clk s.g s.lk t = .ok (wipeStorage s.g) (fun _ => .zero) { t with frames := fs } := by
              simp only [tstep, hp, hfr]
            rw [ets]
            refine ⟨hI.wipe ht hwt hq fs, .inr ?_⟩
            have e1 : t.abs = ⟨.wipe :: fs.map LFrame.abs, t.fatal⟩ := by simp [LThread.abs, hp, hfr, LFrame.abs]
            have e2 : ({ t with frames := fs } : LThread).abs = ⟨fs.map LFrame.abs, t.fatal⟩ := by
              simp [LThread.abs, hp]
            simp only [LState.abs, List.map_set, e1, e2, stepThread, stepFrame, List.nil_append]
        | inr hwt =>
          rcases run_ok clk hI ht hwt with h | ⟨g', lk', t', h, hok⟩
          · rw [h]; exact ⟨hI, .inl rfl⟩
          · rw [h]
            refine ⟨hI.step clk ht hok, ?_⟩
            rcases hok.2.2.2 with ⟨h1, h2⟩ | h1
            · left
              simp only [LState.abs, List.map_set, h1, h2]
              congr 1
              apply List.ext_getElem?
              intro j
              rw [List.getElem?_set]
              split
              · rename_i e; subst e
                split
                · simp [ht]
                · rename_i hlt
                  simp only [List.length_map, Nat.not_lt] at hlt
                  rw [List.getElem?_eq_none (by simpa using hlt)]
              · rfl
            · right
              have e3 : s.abs.g = s.g := rfl
              simp only [e3, h1]
              simp only [LState.abs, List.map_set]

theorem linv_init (cf : GConf L) : LInv cf LState.init := by
  refine ⟨by simp [LState.init], fun l => ⟨rfl, rfl, rfl⟩, rfl⟩

theorem lrun_cons (cf : GConf L) (s : LState) (e : Clock × CEvent) (h : List (Clock × CEvent)) :
    lrun cf s (e :: h) = lrun cf (lstep cf s e) h := rfl

theorem lrun_append (cf : GConf L) (s : LState) (h h' : List (Clock × CEvent)) :
    lrun cf s (h ++ h') = lrun cf (lrun cf s h) h' := List.foldl_append

/-- The invariant in every state of a calm schedule. -/
theorem lrun_inv {cf : GConf L} {s : LState} (hI : LInv cf s) {h : List (Clock × CEvent)} (hc : Calm cf s h) :
    LInv cf (lrun cf s h) := by
  induction h generalizing s with
  | nil => exact hI
  | cons e h ih => exact ih (lstep_ok hI e hc.1).1 hc.2

/-- The coarse model follows, with a part of the same events in the same order. -/
theorem lrun_abs {cf : GConf L} {s : LState} (hI : LInv cf s) {h : List (Clock × CEvent)} (hc : Calm cf s h) :
    ∃ h', h'.Sublist h ∧ (lrun cf s h).abs = crun cf s.abs h' := by
  induction h generalizing s with
  | nil => exact ⟨[], .slnil, rfl⟩
  | cons e h ih =>
    have hs := lstep_ok hI e hc.1
    obtain ⟨h', h1, h2⟩ := ih hs.1 hc.2
    rcases hs.2 with he | he
    · exact ⟨h', .cons _ h1, by rw [lrun_cons, h2, he]⟩
    · exact ⟨e :: h', .cons_cons _ h1, by rw [lrun_cons, h2, he]; rfl⟩

end
end Locks
end CTng
