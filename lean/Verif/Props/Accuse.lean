import Verif.Props.MonConc
/- How often a monitor accuses: C145. -/
set_option autoImplicit false

namespace CTng
open Mon
variable {L : Lib} (X : XLib) (c : MonConf L)

/-! ### Specification -/

/-- How many of the objects are accusations of `e`. -/
def accusationsOf (e : Str) (l : List GossipObj) : Nat := l.countP fun g => g.type = .ACC_INIT ∧ g.payload.p0 = e

/-- How many starts of periods are in a schedule. -/
def queriesIn (h : List MonCEvent) : Nat := h.countP fun | .query _ => true | _ => false

/-! ### What is under way -/

/-- A goroutine that may still accuse `e`. -/
def mayAccuse (e : Str) : MonG → Bool
  | .answered u _ _ | .waiting u _ | .silent u | .accuse u | .accusing u => u = e
  | _ => false

/-- Queries, timers and goroutines that may still accuse `e`, with the accusations sent. -/
def ledger (e : Str) (m : MonState) : Nat :=
  accusationsOf e m.sent + m.queries.countP (fun q => q.1 = e) + m.waits.countP (fun q => q.1 = e)

theorem countP_eraseIdx' {α : Type} (p : α → Bool) : ∀ (l : List α) (i : Nat) (a : α), l[i]? = some a →
    l.countP p = (l.eraseIdx i).countP p + if p a then 1 else 0 := by
  intro l
  induction l with
  | nil => intro i a h; simp at h
  | cons b t ih =>
    intro i a h
    cases i with
    | zero =>
      simp only [List.getElem?_cons_zero, Option.some.injEq] at h
      subst h
      simp [List.countP_cons]
    | succ i =>
      simp only [List.getElem?_cons_succ] at h
      simp only [List.eraseIdx_cons_succ, List.countP_cons, ih i a h]
      omega

theorem countP_set' {α : Type} (p : α → Bool) : ∀ (l : List α) (i : Nat) (a b : α), l[i]? = some a →
    (l.set i b).countP p + (if p a then 1 else 0) = l.countP p + if p b then 1 else 0 := by
  intro l
  induction l with
  | nil => intro i a b h; simp at h
  | cons x t ih =>
    intro i a b h
    cases i with
    | zero =>
      simp only [List.getElem?_cons_zero, Option.some.injEq] at h
      subst h
      simp only [List.set_cons_zero, List.countP_cons]
      omega
    | succ i =>
      simp only [List.getElem?_cons_succ] at h
      have := ih i a b h
      simp only [List.set_cons_succ, List.countP_cons]
      omega

theorem ledger_process (e : Str) (s : MonState) (g : GossipObj) :
    ledger e (processThen c s g).1 = ledger e s ∧ mayAccuse e (processThen c s g).2 = false := by
  constructor
  · rcases processThen_state c s g with h | ⟨h, h'⟩
    · rw [h]
    · rw [h']
      have : g.type ≠ .ACC_INIT := by rcases h with h | h <;> rw [h] <;> decide
      simp [ledger, send, accusationsOf, List.countP_append, this]
  · simp only [processThen]
    split <;> rfl

theorem ledger_put (e : Str) (s : MonState) (g : GossipObj) : ledger e (putObject s g X) = ledger e s := by
  unfold putObject
  split
  · rfl
  · rfl
  · unfold storeObject
    split <;> rfl

theorem ledger_end (e : Str) (clk : Clock) (s : MonState) (a : EndAt) :
    ledger e (endStep X c clk s a).1 = ledger e s ∧ mayAccuse e (endStep X c clk s a).2 = false := by
  cases a <;> exact ⟨rfl, rfl⟩

/-- A step of a goroutine does not add to what may be accused. -/
theorem ledger_gStep {e : Str} {clk : Clock} {s s' : MonState} {G G' : MonG} (h : gStep X c clk s G = some (s', G')) :
    ledger e s' + (if mayAccuse e G' then 1 else 0) ≤ ledger e s + if mayAccuse e G then 1 else 0 := by
  have hproc : ∀ {g : GossipObj}, processThen c s g = (s', G') →
      ledger e s' + (if mayAccuse e G' then 1 else 0) ≤ ledger e s + if mayAccuse e G then 1 else 0 := by
    intro g hg
    obtain ⟨h1, h2⟩ := ledger_process c e s g
    rw [hg] at h1 h2
    simp only at h1 h2
    rw [h1, h2]
    simp
  have hwait : ∀ {u : Str} {k : EntityKind} {f : Fetched}, G = .answered u k f → ({ s with waits := s.waits ++ [(u, k)] }, MonG.done) = (s', G') →
      ledger e s' + (if mayAccuse e G' then 1 else 0) ≤ ledger e s + if mayAccuse e G then 1 else 0 := by
    intro u k f hG hw
    cases hw
    subst hG
    by_cases hu : u = e <;> simp [ledger, mayAccuse, List.countP_append, List.countP_singleton, hu] <;> omega
  cases G with
  | check g =>
    simp only [gStep] at h
    split at h
    · cases h; simp [mayAccuse]
    · split at h
      · cases h; simp [mayAccuse]
      · cases h; simp [mayAccuse]
      · exact hproc (Option.some.inj h)
  | put g =>
    simp only [gStep, Option.some.injEq, Prod.mk.injEq] at h
    obtain ⟨h1, h2⟩ := h
    rw [← h1, ledger_put]
    have : mayAccuse e G' = false := by rw [← h2]; split <;> rfl
    rw [this]
    simp
  | putNew g =>
    simp only [gStep, Option.some.injEq, Prod.mk.injEq] at h
    obtain ⟨h1, h2⟩ := h
    subst h2
    have : ledger e s' = ledger e s := by
      rw [← h1]
      unfold putNewObject
      split <;> rfl
    rw [this]
    simp [mayAccuse]
  | answered u k f =>
    simp only [gStep] at h
    split at h
    · exact hwait rfl (Option.some.inj h)
    · split at h
      · cases h
      · exact hwait rfl (Option.some.inj h)
      · split at h
        · exact hproc (Option.some.inj h)
        · split at h
          · cases h
          · exact hwait rfl (Option.some.inj h)
          · exact hproc (Option.some.inj h)
  | waiting u k =>
    simp only [gStep, Option.some.injEq, Prod.mk.injEq] at h
    obtain ⟨rfl, h2⟩ := h
    have : G' = .done ∨ G' = .silent u := by
      rw [← h2]
      cases k <;> simp only <;> split <;> simp
    rcases this with h | h <;> rw [h] <;> simp [mayAccuse]
  | silent u =>
    simp only [gStep, Option.some.injEq, Prod.mk.injEq] at h
    obtain ⟨rfl, h2⟩ := h
    rw [← h2]
    split <;> simp [mayAccuse]
  | accuse u =>
    simp only [gStep, Option.some.injEq, Prod.mk.injEq] at h
    obtain ⟨rfl, h2⟩ := h
    rw [← h2]
    split <;> simp [mayAccuse]
  | accusing u =>
    simp only [gStep, Option.some.injEq, Prod.mk.injEq] at h
    obtain ⟨rfl, rfl⟩ := h
    by_cases hu : u = e <;>
      simp [ledger, send, accusationsOf, accusation, List.countP_append, List.countP_singleton, mayAccuse, hu] <;> omega
  | crvLook key d =>
    simp only [gStep, Option.some.injEq, Prod.mk.injEq] at h
    obtain ⟨rfl, h2⟩ := h
    rw [← h2]
    split <;> simp [mayAccuse]
  | crvNew key d =>
    simp only [gStep, Option.some.injEq, Prod.mk.injEq] at h
    obtain ⟨rfl, rfl⟩ := h
    simp [mayAccuse, ledger]
  | ending a =>
    simp only [gStep, Option.some.injEq] at h
    obtain ⟨h1, h2⟩ := ledger_end X c e clk s a
    rw [h] at h1 h2
    simp only at h1 h2
    rw [h1, h2]
    simp
  | done =>
    simp only [gStep, Option.some.injEq, Prod.mk.injEq] at h
    obtain ⟨rfl, rfl⟩ := h
    exact Nat.le_refl _

/-- What may be accused, in all. -/
def ledgerC (e : Str) (x : MonC) : Nat := ledger e x.m + x.gs.countP (mayAccuse e)

theorem count_filter_map_le (e : Str) (k : EntityKind) (p : Str → Bool) (l : List Str) :
    ((l.filter p).map (·, k)).countP (fun q => q.1 = e) ≤ l.countP (· = e) := by
  induction l with
  | nil => simp
  | cons a t ih =>
    by_cases hp : p a = true
    · rw [List.filter_cons_of_pos hp]
      simp only [List.map_cons, List.countP_cons]
      omega
    · rw [List.filter_cons_of_neg hp]
      simp only [List.countP_cons]
      omega

theorem ledgerC_step (e : Str) (x : MonC) (ev : MonCEvent) :
    ledgerC e (monCStep X c x ev) ≤ ledgerC e x + queriesIn [ev] * (c.loggerURLs.countP (· = e) + c.caURLs.countP (· = e)) := by
  by_cases hd : x.dead = true
  · rw [monCStep_dead X c hd]; omega
  unfold monCStep
  rw [if_neg hd]
  cases ev with
  | gossip b => simp [ledgerC, List.countP_append, mayAccuse]
  | query clk =>
    have h1 := count_filter_map_le e .logger (fun u => decide (checkEntityPom x.m clk u = false)) c.loggerURLs
    have h2 := count_filter_map_le e .ca (fun u => decide (checkEntityPom x.m clk u = false)) c.caURLs
    simp only [ledgerC, startQueries, ledger, List.countP_append, queriesIn, List.countP_singleton, if_true, Nat.one_mul] at *
    omega
  | answer i f =>
    simp only
    split
    · omega
    · next u k hq =>
      have h1 := countP_eraseIdx' (fun q : Str × EntityKind => decide (q.1 = e)) x.m.queries i (u, k) hq
      by_cases hu : u = e <;> simp only [hu, decide_true, decide_false, if_true, Bool.false_eq_true, if_false] at h1 <;>
        simp [ledgerC, ledger, List.countP_append, List.countP_singleton, mayAccuse, hu] <;> omega
  | wait i =>
    simp only
    split
    · omega
    · next u k hq =>
      have h1 := countP_eraseIdx' (fun q : Str × EntityKind => decide (q.1 = e)) x.m.waits i (u, k) hq
      by_cases hu : u = e <;> simp only [hu, decide_true, decide_false, if_true, Bool.false_eq_true, if_false] at h1 <;>
        simp [ledgerC, ledger, List.countP_append, List.countP_singleton, mayAccuse, hu] <;> omega
  | crv i =>
    simp only
    split
    · omega
    · simp [ledgerC, ledger, List.countP_append, mayAccuse]
  | finish => simp [ledgerC, List.countP_append, mayAccuse]
  | run i clk =>
    simp only
    split
    · omega
    · next G hG =>
      split
      · exact Nat.le_add_right _ _
      · next m' G' hs =>
        have h1 := countP_set' (mayAccuse e) x.gs i G G' hG
        have h2 := ledger_gStep X c (e := e) hs
        simp only [ledgerC]
        omega

/-- C145, what holds: whatever arrives and in whatever order the goroutines run, a monitor has accused an entity at most once for
each time it has queried its list of loggers and CAs and each entry of the entity in these lists; an entity in neither list is never
accused. -/
theorem C145_once_per_query_partial (e : Str) (h : List MonCEvent) :
    accusationsOf e (monCRun X c .init h).m.sent ≤ queriesIn h * (c.loggerURLs.countP (· = e) + c.caURLs.countP (· = e)) := by
  have key : ∀ (h : List MonCEvent) (x : MonC),
      ledgerC e (monCRun X c x h) ≤ ledgerC e x + queriesIn h * (c.loggerURLs.countP (· = e) + c.caURLs.countP (· = e)) := by
    intro h
    induction h with
    | nil => intro x; simp [queriesIn, monCRun]
    | cons a t ih =>
      intro x
      rw [monCRun_cons]
      have h1 := ih (monCStep X c x a)
      have h2 := ledgerC_step X c e x a
      have h3 : queriesIn (a :: t) = queriesIn [a] + queriesIn t := by
        rw [queriesIn, show a :: t = [a] ++ t from rfl, List.countP_append]; rfl
      rw [h3, Nat.add_mul]
      omega
  have := key h .init
  have h0 : ledgerC e .init = 0 := rfl
  rw [h0] at this
  have h1 : accusationsOf e (monCRun X c .init h).m.sent ≤ ledgerC e (monCRun X c .init h) := by
    simp only [ledgerC, ledger]; omega
  omega

theorem eraseIdx_mid {α : Type} (p : List α) (a : α) (q : List α) : (p ++ a :: q).eraseIdx p.length = p ++ q := by
  rw [List.eraseIdx_append_of_length_le (Nat.le_refl _), Nat.sub_self, List.eraseIdx_cons_zero]

/-- A query that fails and whose timer fires accuses. -/
theorem fails_accuses (clk : Clock) (m : MonState) (l : List MonG) (p q : List (Str × EntityKind)) (e : Str) (k : EntityKind)
    (hq : m.queries = p ++ (e, k) :: q) (hs : m.temp.get ⟨clk.period, stmtType k, e⟩ = none) (hpom : checkEntityPom m clk e = false) :
    monCRun X c ⟨m, l, false⟩ ([.answer p.length .failed, .run l.length clk, .wait m.waits.length] ++ aloneM clk (l.length + 1) 4) =
      ⟨{ m with queries := p ++ q, sent := m.sent ++ [accusation c clk e] }, l ++ [.done, .done], false⟩ := by
  have e1 : monCStep X c ⟨m, l, false⟩ (.answer p.length .failed) =
      ⟨{ m with queries := p ++ q }, l ++ [.answered e k .failed], false⟩ := by
    unfold monCStep
    have : m.queries[p.length]? = some (e, k) := by rw [hq]; simp
    simp only [Bool.false_eq_true, if_false, this]
    rw [hq, eraseIdx_mid]
  let m1 : MonState := { m with queries := p ++ q, waits := m.waits ++ [(e, k)] }
  let m2 : MonState := { m with queries := p ++ q }
  have e2 : gStep X c clk { m with queries := p ++ q } (.answered e k .failed) = some (m1, .done) := rfl
  have e3 : monCStep X c ⟨m1, l ++ [.done], false⟩ (.wait m.waits.length) = ⟨m2, l ++ [.done] ++ [.waiting e k], false⟩ := by
    unfold monCStep
    have : m1.waits[m.waits.length]? = some (e, k) := by simp [m1]
    simp only [Bool.false_eq_true, if_false, this]
    have : m1.waits.eraseIdx m.waits.length = m.waits := by
      show (m.waits ++ [(e, k)]).eraseIdx _ = _
      rw [eraseIdx_mid]; simp
    rw [this]
  have g1 : gStep X c clk m2 (.waiting e k) = some (m2, .silent e) := by
    cases k <;> simp only [stmtType] at hs <;> simp [gStep, m2, GoMap.has, hs]
  have hp2 : checkEntityPom m2 clk e = false := hpom
  have g2 : gStep X c clk m2 (.silent e) = some (m2, .accuse e) := by simp [gStep, hp2]
  have g3 : gStep X c clk m2 (.accuse e) = some (m2, .accusing e) := by simp [gStep, hp2]
  have g4 : gStep X c clk m2 (.accusing e) = some (send m2 (accusation c clk e), .done) := rfl
  have hl : l.length + 1 = (l ++ [MonG.done]).length := by simp
  rw [monCRun_append, monCRun_cons, e1, monCRun_cons, run_mid X c e2, monCRun_cons, e3, hl]
  show monCRun X c _ (aloneM clk _ (3 + 1)) = _
  rw [show monCRun X c ⟨m2, l ++ [.done] ++ [.waiting e k], false⟩ [] = ⟨m2, l ++ [.done] ++ [.waiting e k], false⟩ from rfl,
    aloneM_succ, run_mid X c g1, aloneM_succ, run_mid X c g2, aloneM_succ, run_mid X c g3, aloneM_succ, run_mid X c g4]
  simp [aloneM, monCRun, send, m2]

/-- C145 fails: two queries of a logger that both fail in the second period give two accusations of it for that period. A query is
not bounded in time, so the first can fail that late. -/
theorem C145_violated_late (e : Str) (he : e ∈ c.loggerURLs) (clk clk' : Clock) :
    ∃ h, queriesIn h = 0 ∧ (monCRun X c .init ([.query clk, .query clk'] ++ h)).m.sent = [accusation c clk' e, accusation c clk' e] := by
  obtain ⟨p, q, hpq⟩ := List.append_of_mem he
  let A : List (Str × EntityKind) := p.map (·, .logger)
  let B : List (Str × EntityKind) := q.map (·, .logger) ++ c.caURLs.map (·, .ca)
  have hf : ∀ (s : MonState) (k : Clock), s.accusationPom = .empty → s.conflictPom = .empty → ∀ l : List Str,
      l.filter (fun u => checkEntityPom s k u = false) = l := by
    intro s k h1 h2 l
    rw [List.filter_eq_self]
    intro u _
    simp [checkEntityPom, h1, h2, GoMap.has]
  let m : MonState := { initMonitor with queries := A ++ (e, .logger) :: (B ++ A ++ (e, .logger) :: B) }
  have h0 : monCRun X c .init [.query clk, .query clk'] = ⟨m, [], false⟩ := by
    rw [monCRun_cons, monCRun_cons]
    simp only [monCRun, List.foldl_nil, monCStep, MonC.init, Bool.false_eq_true, if_false]
    have q1 : startQueries c clk initMonitor = { initMonitor with queries := A ++ (e, .logger) :: B } := by
      unfold startQueries
      rw [hf initMonitor clk rfl rfl, hf initMonitor clk rfl rfl, hpq]
      simp [initMonitor, A, B]
    rw [q1]
    unfold startQueries
    rw [hf _ clk' rfl rfl, hf _ clk' rfl rfl, hpq]
    simp [m, A, B]
  have r1 := fails_accuses X c clk' m [] A (B ++ A ++ (e, .logger) :: B) e .logger rfl rfl rfl
  let m' : MonState := { m with queries := A ++ (B ++ A ++ (e, .logger) :: B), sent := [] ++ [accusation c clk' e] }
  have r2 := fails_accuses X c clk' m' [.done, .done] (A ++ (B ++ A)) B e .logger (by simp [m']) rfl rfl
  refine ⟨([.answer A.length .failed, .run 0 clk', .wait 0] ++ aloneM clk' 1 4) ++
    ([.answer (A ++ (B ++ A)).length .failed, .run 2 clk', .wait 0] ++ aloneM clk' 3 4), ?_, ?_⟩
  · simp [queriesIn, aloneM, List.replicate]
  · rw [monCRun_append, h0, monCRun_append]
    refine (congrArg (fun x => (monCRun X c x _).m.sent) r1).trans ?_
    refine (congrArg (fun x : MonC => x.m.sent) r2).trans ?_
    rfl

namespace Ref

/-- C145: one accusation of L1 for one query that fails, and two in one period when the query of the period before fails late. -/
example : accusationsOf (go!"L1") (monCRun xlib monConf .init ([.query clk, .answer 0 .failed] ++ aloneM clk 0 1 ++ [.wait 0] ++
      aloneM clk 1 4)).m.sent = 1 ∧ queriesIn ([.query clk, .answer 0 .failed] ++ aloneM clk 0 1) = 1 ∧
    monConf.loggerURLs.countP (· = go!"L1") + monConf.caURLs.countP (· = go!"L1") = 1 := by decide +kernel

example : ∃ h, (monCRun xlib monConf .init h).m.sent.map (fun g => (g.type, g.period, g.payload.p0)) =
    [(.ACC_INIT, clk06.period, go!"L1"), (.ACC_INIT, clk06.period, go!"L1")] := by
  obtain ⟨h, _, hh⟩ := C145_violated_late xlib monConf (go!"L1") (by decide +kernel) clk clk06
  exact ⟨_, by rw [hh]; rfl⟩

end Ref
end CTng
