import Verif.Proofs.LocksInv
import Verif.Spec.RefLib
/-
C122: the locked sections of the gossiper are atomic.
C123: the gossiper's locks do not deadlock.
C124: the wipe of the storage leaves requests under way alone.
-/
set_option autoImplicit false

namespace CTng
open Locks

variable {L : Lib}

/-- The map a goroutine is just accessing, and whether it writes. -/
def touching (t : LThread) : Option (LockName × Bool) :=
  match t.phase with
  | .sec _ _ [] _ (.read m _) true => some (m, false)
  | .sec _ _ [] _ (.write m _ _) true => some (m, true)
  | _ => none

/-- The goroutine is in the loops of `Save`. -/
def saving (t : LThread) : Prop :=
  ∃ held todo ann b busy, t.phase = .sec (.pt .save) held todo ann b busy

/-- Something is left to do. -/
def unfinished (t : LThread) : Prop := t.phase ≠ .idle ∨ t.frames ≠ []

/-- Goroutine `i` can make a step now. -/
def canStep (cf : GConf L) (clk : Clock) (s : LState) (i : Nat) : Prop :=
  ∃ t, s.threads[i]? = some t ∧ tstep cf clk s.g s.lk t ≠ .blocked

/-- C122: as long as no wipe meets a held lock, the gossiper with its locks and single map accesses, under any interleaving, does
what the gossiper with atomic sections (`crun`) does under a part of the same events in the same order: the shared data is the
same and every goroutine is at the same point. -/
theorem C122_sections_are_atomic_partial (cf : GConf L) (h : List (Clock × CEvent)) (hc : Calm cf LState.init h) :
    ∃ h', h'.Sublist h ∧ (lrun cf LState.init h).g = (crun cf CState.init h').g ∧
      (lrun cf LState.init h).threads.map LThread.abs = (crun cf CState.init h').threads := by
  obtain ⟨h', h1, h2⟩ := lrun_abs (linv_init cf) hc
  exact ⟨h', h1, congrArg CState.g h2, congrArg CState.threads h2⟩

/-- C122: two goroutines are never in the same map at the same time with one of them writing, except for `Save`. -/
theorem C122_accesses_exclude_partial (cf : GConf L) (h : List (Clock × CEvent)) (hc : Calm cf LState.init h)
    {i j : Nat} {t u : LThread} (hi : (lrun cf LState.init h).threads[i]? = some t)
    (hj : (lrun cf LState.init h).threads[j]? = some u) (hij : i ≠ j) {m : LockName} {c : Bool}
    (ht : touching t = some (m, true)) (hu : touching u = some (m, c)) : saving u := by
  have hI := lrun_inv (linv_init cf) hc
  have hT := hI.thr t (List.mem_of_getElem? hi)
  have hU := hI.thr u (List.mem_of_getElem? hj)
  have hw : (m, Tok.wr) ∈ t.phase.toks := by
    unfold touching at ht
    split at ht
    · cases ht
    · rename_i f held ann m' w r hp
      cases ht
      simp only [ThrOk, hp] at hT
      obtain ⟨_, h2, _, _, _, h6⟩ := hT
      simp only [List.append_nil] at h2
      rw [hp]
      have : (m, true) ∈ held := by rw [h2]; exact h6
      exact List.mem_append_left _ (List.mem_map.2 ⟨_, this, rfl⟩)
    · cases ht
  have hno := hI.cnt.excl hi hj hij hw
  unfold touching at hu
  split at hu
  · rename_i f held ann m' k hp
    cases hu
    simp only [ThrOk, hp] at hU
    obtain ⟨_, h2, _, _, _, h6⟩ := hU
    simp only [List.append_nil] at h2
    rcases h6.1 with ⟨c, hc⟩ | ⟨hs, _⟩
    · exfalso
      rw [← h2] at hc
      have hm : tokOf (m, c) ∈ u.phase.toks := by
        rw [hp]; exact List.mem_append_left _ (List.mem_map.2 ⟨_, hc, rfl⟩)
      cases c
      · exact hno.1 hm
      · exact hno.2 hm
    · have : f = .pt .save := by simpa using hs
      subst this
      exact ⟨_, _, _, _, _, hp⟩
  · rename_i f held ann m' w r hp
    cases hu
    exfalso
    simp only [ThrOk, hp] at hU
    obtain ⟨_, h2, _, _, _, h6⟩ := hU
    simp only [List.append_nil] at h2
    have hc : (m, true) ∈ held := by rw [h2]; exact h6
    exact hno.2 (by rw [hp]; exact List.mem_append_left _ (List.mem_map.2 ⟨_, hc, rfl⟩))
  · cases hu

/-- What blocks a goroutine. -/
theorem blocked_cases {cf : GConf L} {clk : Clock} {g : GState} {lk : LockTab} {t : LThread}
    (h : tstep cf clk g lk t = .blocked) :
    (t.phase = .idle ∧ t.frames = []) ∨ ∃ f held l c todo ann b busy, t.phase = .sec f held ((l, c) :: todo) ann b busy ∧
      ((lk l).w ≠ .free ∨ (ann = true ∧ (lk l).readers ≠ 0)) := by
  unfold tstep at h
  split at h
  · rename_i hp
    left
    split at h
    · exact ⟨hp, ‹_›⟩
    · cases h
    · cases h
  · rename_i f held l todo b busy hp
    split at h
    · cases h
    · exact .inr ⟨_, _, _, _, _, _, _, _, hp, .inl ‹_›⟩
  · rename_i f held l todo b busy hp
    split at h
    · cases h
    · exact .inr ⟨_, _, _, _, _, _, _, _, hp, .inr ⟨rfl, ‹_›⟩⟩
  · rename_i f held l todo ann b busy hp
    split at h
    · cases h
    · exact .inr ⟨_, _, _, _, _, _, _, _, hp, .inl ‹_›⟩
  · unfold commit at h; split at h <;> cases h
  · unfold commit at h; split at h <;> cases h
  · split at h <;> cases h
  · split at h
    · unfold commit at h; split at h <;> cases h
    · cases h
  · cases h
  · split at h <;> cases h
  · split at h <;> cases h

/-- A goroutine with a share in `l` that is not a waiting writer's can step, or waits for a later lock. -/
theorem holder_cases {cf : GConf L} {clk : Clock} {s : LState} (hI : LInv cf s) {k : Nat} {u : LThread}
    (hk : s.threads[k]? = some u) {l : LockName} {x : Tok} (hx : x ≠ .an) (hm : (l, x) ∈ u.phase.toks)
    (hb : tstep cf clk s.g s.lk u = .blocked) :
    ∃ f held l' c todo ann b busy, u.phase = .sec f held ((l', c) :: todo) ann b busy ∧ rank l < rank l' := by
  rcases blocked_cases hb with ⟨hp, _⟩ | ⟨f, held, l', c, todo, ann, b, busy, hp, _⟩
  · rw [hp] at hm; cases hm
  · refine ⟨f, held, l', c, todo, ann, b, busy, hp, ?_⟩
    have hU := hI.thr u (List.mem_of_getElem? hk)
    simp only [ThrOk, hp] at hU
    have hs := (secOf_ok cf f).1
    rw [← hU.2.1] at hs
    rw [hp] at hm
    rcases List.mem_append.1 hm with hm | hm
    · obtain ⟨q, hq, he⟩ := List.mem_map.1 hm
      have := (List.pairwise_append.1 hs).2.2 q hq (l', c) (by simp)
      simp only [tokOf, Prod.mk.injEq] at he
      rw [← he.1]; exact this
    · cases ann
      · simp [annTok] at hm
      · simp only [annTok, List.mem_singleton, Prod.mk.injEq] at hm
        exact absurd hm.2 hx

theorem waiting_progress {cf : GConf L} (clk : Clock) {s : LState} (hI : LInv cf s) (n : Nat) :
    ∀ (i : Nat) (t : LThread) (l : LockName), s.threads[i]? = some t → 12 ≤ rank l + n →
      (∃ f held c todo ann b busy, t.phase = .sec f held ((l, c) :: todo) ann b busy) →
      ∃ (j : Nat) (u : LThread), s.threads[j]? = some u ∧ tstep cf clk s.g s.lk u ≠ .blocked ∧ u.phase ≠ .idle := by
  induction n with
  | zero => intro i t l _ h _; have := rank_lt l; omega
  | succ n ih =>
    intro i t l ht hr ⟨f, held, c, todo, ann, b, busy, hp⟩
    -- a goroutine that holds l leads on
    have lead : ∀ x, x ≠ Tok.an → 0 < tot (l, x) s.threads →
        ∃ (j : Nat) (u : LThread), s.threads[j]? = some u ∧ tstep cf clk s.g s.lk u ≠ .blocked ∧ u.phase ≠ .idle := by
      intro x hx hpos
      obtain ⟨k, u, hk, hm⟩ := tot_pos hpos
      cases Classical.em (tstep cf clk s.g s.lk u = .blocked) with
      | inr hb => exact ⟨k, u, hk, hb, by intro e; rw [e] at hm; cases hm⟩
      | inl hb =>
        obtain ⟨f', held', l', c', todo', ann', b', busy', hp', hlt⟩ := holder_cases hI hk hx hm hb
        exact ih k u l' hk (by omega) ⟨f', held', c', todo', ann', b', busy', hp'⟩
    cases Classical.em (tstep cf clk s.g s.lk t = .blocked) with
    | inr hb => exact ⟨i, t, ht, hb, by rw [hp]; simp⟩
    | inl hb =>
      have hC := hI.cnt l
      rcases blocked_cases hb with ⟨h1, _⟩ | ⟨f', held', l', c', todo', ann', b', busy', hp', hwhy⟩
      · rw [hp] at h1; cases h1
      · rw [hp] at hp'
        cases hp'
        rcases hwhy with hwf | ⟨_, hrd⟩
        · unfold LockOk at hC
          cases hw : (s.lk l).w with
          | free => exact absurd hw hwf
          | held => rw [hw] at hC; exact lead .wr (by simp) (by simp only at hC; omega)
          | announced =>
            rw [hw] at hC
            simp only at hC
            obtain ⟨k, u, hk, hm⟩ := tot_pos (k := (l, Tok.an)) (ts := s.threads) (by omega)
            cases Classical.em (tstep cf clk s.g s.lk u = .blocked) with
            | inr hb => exact ⟨k, u, hk, hb, by intro e; rw [e] at hm; cases hm⟩
            | inl hb =>
              rcases blocked_cases hb with ⟨h1, _⟩ | ⟨f2, held2, l2, c2, todo2, ann2, b2, busy2, hp2, hwhy2⟩
              · rw [h1] at hm; cases hm
              · have hl2 : ann2 = true ∧ l2 = l := by
                  rw [hp2] at hm
                  rcases List.mem_append.1 hm with hm | hm
                  · obtain ⟨q, _, he⟩ := List.mem_map.1 hm
                    simp only [tokOf, Prod.mk.injEq] at he
                    obtain ⟨_, he⟩ := he
                    split at he <;> cases he
                  · cases ann2
                    · simp [annTok] at hm
                    · simp only [annTok, List.mem_singleton, Prod.mk.injEq] at hm
                      exact ⟨rfl, hm.1.symm⟩
                obtain ⟨rfl, rfl⟩ := hl2
                rcases hwhy2 with hwhy2 | ⟨_, hrd⟩
                · -- the announced writer only waits for readers
                  have hU := hI.thr u (List.mem_of_getElem? hk)
                  simp only [ThrOk, hp2] at hU
                  obtain ⟨l3, r3, h3⟩ := hU.2.2.1 trivial
                  cases h3
                  have hb' := hb
                  simp only [tstep, hp2] at hb'
                  split at hb'
                  · cases hb'
                  · rename_i hrd
                    exact lead .rd (by simp) (by rw [hC.1] at hrd; omega)
                · exact lead .rd (by simp) (by rw [hC.1] at hrd; omega)
        · exact lead .rd (by simp) (by rw [hC.1] at hrd; omega)

/-- C123: under any interleaving, as long as no wipe meets a held lock: if some goroutine is not finished, some goroutine can
make a step. -/
theorem C123_no_deadlock (cf : GConf L) (h : List (Clock × CEvent)) (hc : Calm cf LState.init h) (clk : Clock)
    (hu : ∃ t ∈ (lrun cf LState.init h).threads, unfinished t) : ∃ i, canStep cf clk (lrun cf LState.init h) i := by
  have hI := lrun_inv (linv_init cf) hc
  obtain ⟨t, ht, hu⟩ := hu
  obtain ⟨i, hi⟩ := List.getElem?_of_mem ht
  cases Classical.em (tstep cf clk (lrun cf LState.init h).g (lrun cf LState.init h).lk t = .blocked) with
  | inr hb => exact ⟨i, t, hi, hb⟩
  | inl hb =>
    rcases blocked_cases hb with ⟨h1, h2⟩ | ⟨f, held, l, c, todo, ann, b, busy, hp, _⟩
    · rcases hu with hu | hu
      · exact absurd h1 hu
      · exact absurd h2 hu
    · obtain ⟨j, u, hj, hn, _⟩ := waiting_progress clk hI 12 i t l hi (by omega) ⟨f, held, c, todo, ann, b, busy, hp⟩
      exact ⟨j, u, hj, hn⟩

/-! Running one goroutine alone -/

theorem one_step {cf : GConf L} {s : LState} {clk : Clock} (hI : LInv cf s) (hcr : s.g.crashed = false) {i : Nat} {t : LThread}
    (ht : s.threads[i]? = some t) (hp : t.phase ≠ .idle) {g' : GState} {lk' : LockTab} {t' : LThread}
    (h : tstep cf clk s.g s.lk t = .ok g' lk' t') :
    lstep cf s (clk, .run i) = { s with g := g', lk := lk', threads := s.threads.set i t' } ∧
    LInv cf { s with g := g', lk := lk', threads := s.threads.set i t' } ∧ (wipes s (clk, .run i) → Quiet s) := by
  have hw : ¬ t.wiping := fun hw => hp hw.1
  refine ⟨?_, ?_, ?_⟩
  · simp only [lstep, hcr, hI.nofatal, Bool.or_self, Bool.false_eq_true, if_false, ht, h]
  · rcases run_ok clk hI ht hw with hb | ⟨g1, lk1, t1, h1, hok⟩
    · rw [h] at hb; cases hb
    · rw [h] at h1; cases h1
      exact hI.step clk ht hok
  · rintro ⟨_, _, j, u, he, hu, hwu⟩
    cases he
    rw [ht] at hu; cases hu
    exact absurd hwu hw

theorem not_fatal {cf : GConf L} {s : LState} {clk : Clock} (hI : LInv cf s) {i : Nat} {t : LThread}
    (ht : s.threads[i]? = some t) (hp : t.phase ≠ .idle) : tstep cf clk s.g s.lk t ≠ .fatal := by
  intro h
  rcases run_ok clk hI ht (fun hw => hp hw.1) with hb | ⟨g1, lk1, t1, h1, _⟩
  · rw [h] at hb; cases hb
  · rw [h] at h1; cases h1

/-- Goroutine `i`, running alone, leaves its section, or the process panics. -/
def Ends (cf : GConf L) (clk : Clock) (s : LState) (i : Nat) : Prop :=
  ∃ (n : Nat) (t' : LThread), LInv cf (lrun cf s (List.replicate n (clk, .run i))) ∧
    Calm cf s (List.replicate n (clk, .run i)) ∧
    ((lrun cf s (List.replicate n (clk, .run i))).g.crashed = true ∨
      ((lrun cf s (List.replicate n (clk, .run i))).g.crashed = false ∧
       (lrun cf s (List.replicate n (clk, .run i))).threads = s.threads.set i t' ∧ t'.phase = .idle))

theorem set_self_get {ts : List LThread} {i : Nat} {t : LThread} (h : ts[i]? = some t) (t' : LThread) :
    (ts.set i t')[i]? = some t' := by
  have := (List.getElem?_eq_some_iff.1 h).1
  simp [this]

theorem ends_of_step {cf : GConf L} {s : LState} {clk : Clock} (hI : LInv cf s) (hcr : s.g.crashed = false) {i : Nat}
    {t : LThread} (ht : s.threads[i]? = some t) (hp : t.phase ≠ .idle) {g' : GState} {lk' : LockTab} {t' : LThread}
    (h : tstep cf clk s.g s.lk t = .ok g' lk' t')
    (hn : g'.crashed = false → t'.phase = .idle ∨
      Ends cf clk { s with g := g', lk := lk', threads := s.threads.set i t' } i) : Ends cf clk s i := by
  obtain ⟨h1, h2, h3⟩ := one_step hI hcr ht hp h
  have done : (g'.crashed = true ∨ (g'.crashed = false ∧ t'.phase = .idle)) → Ends cf clk s i := by
    intro hd
    refine ⟨1, t', ?_, ⟨h3, trivial⟩, ?_⟩
    · show LInv cf (lstep cf s (clk, .run i))
      rw [h1]; exact h2
    · show (lstep cf s (clk, .run i)).g.crashed = true ∨ _ ∧ (lstep cf s (clk, .run i)).threads = _ ∧ _
      rw [h1]
      rcases hd with hd | ⟨hd, hd'⟩
      · exact .inl hd
      · refine .inr ⟨?_, rfl, hd'⟩
        show (lstep cf s (clk, .run i)).g.crashed = false
        rw [h1]; exact hd
  cases hc : g'.crashed with
  | true => exact done (.inl hc)
  | false =>
    rcases hn hc with hn | ⟨n, t2, e1, e2, e3⟩
    · exact done (.inr ⟨hc, hn⟩)
    · refine ⟨n + 1, t2, ?_, ?_, ?_⟩
      · rw [List.replicate_succ, lrun_cons, h1]; exact e1
      · rw [List.replicate_succ]; refine ⟨h3, ?_⟩; rw [h1]; exact e2
      · rw [List.replicate_succ, lrun_cons, h1]
        rcases e3 with e3 | ⟨e3, e4, e5⟩
        · exact .inl e3
        · refine .inr ⟨e3, ?_, e5⟩
          rw [e4]; simp

theorem solo_rel (cf : GConf L) (clk : Clock) (i : Nat) (held : List (LockName × Bool)) :
    ∀ (s : LState) (t : LThread), LInv cf s → s.g.crashed = false → s.threads[i]? = some t → t.phase = .rel held →
      Ends cf clk s i := by
  induction held with
  | nil =>
    intro s t hI hcr ht hp
    exact ends_of_step hI hcr ht (by rw [hp]; simp) (g' := s.g) (lk' := s.lk) (t' := { t with phase := .idle })
      (by simp only [tstep, hp]) fun _ => .inl rfl
  | cons p held ih =>
    intro s t hI hcr ht hp
    have hne : t.phase ≠ .idle := by rw [hp]; simp
    have hnf := not_fatal (clk := clk) hI ht hne
    obtain ⟨l, c⟩ := p
    cases c with
    | true =>
      simp only [tstep, hp] at hnf
      split at hnf
      · rename_i hh
        have hs : tstep cf clk s.g s.lk t =
            .ok s.g (s.lk.set l { s.lk l with w := .free }) { t with phase := .rel held } := by
          simp only [tstep, hp, if_pos hh]
        refine ends_of_step hI hcr ht hne hs fun _ => .inr ?_
        exact ih _ _ (one_step hI hcr ht hne hs).2.1 hcr (set_self_get ht _) rfl
      · exact absurd rfl hnf
    | false =>
      simp only [tstep, hp] at hnf
      split at hnf
      · rename_i hh
        have hs : tstep cf clk s.g s.lk t =
            .ok s.g (s.lk.set l { s.lk l with readers := (s.lk l).readers - 1 }) { t with phase := .rel held } := by
          simp only [tstep, hp, if_pos hh]
        refine ends_of_step hI hcr ht hne hs fun _ => .inr ?_
        exact ih _ _ (one_step hI hcr ht hne hs).2.1 hcr (set_self_get ht _) rfl
      · exact absurd rfl hnf

theorem commit_rel (clk : Clock) (a : Ans) (g : GState) (lk : LockTab) (t : LThread) (held : List (LockName × Bool)) :
    ∃ g' fr, commit clk a g lk t held = .ok g' lk { t with frames := fr, phase := .rel held.reverse } := by
  unfold commit
  split
  · exact ⟨_, _, rfl⟩
  · exact ⟨_, _, rfl⟩

theorem solo_commit {cf : GConf L} {clk : Clock} {i : Nat} {s : LState} {t : LThread} (hI : LInv cf s)
    (hcr : s.g.crashed = false) (ht : s.threads[i]? = some t) (hp : t.phase ≠ .idle) {a : Ans} {g : GState}
    {held : List (LockName × Bool)} (h : tstep cf clk s.g s.lk t = commit clk a g s.lk t held) : Ends cf clk s i := by
  obtain ⟨g', fr, e⟩ := commit_rel clk a g s.lk t held
  rw [e] at h
  exact ends_of_step hI hcr ht hp h fun hc => .inr
    (solo_rel cf clk i held.reverse _ _ (one_step hI hcr ht hp h).2.1 hc (set_self_get ht _) rfl)

theorem solo_body (cf : GConf L) (clk : Clock) (i : Nat) (f : LFrame) (held : List (LockName × Bool)) (ann : Bool) (b : Locks.Body) :
    ∀ (s : LState) (t : LThread) (busy : Bool), LInv cf s → s.g.crashed = false → s.threads[i]? = some t →
      t.phase = .sec f held [] ann b busy → Ends cf clk s i := by
  induction b with
  | ret r =>
    intro s t busy hI hcr ht hp
    exact solo_commit hI hcr ht (by rw [hp]; simp) (by simp only [tstep, hp]; rfl)
  | peek m r =>
    intro s t busy hI hcr ht hp
    exact solo_commit hI hcr ht (by rw [hp]; simp) (by simp only [tstep, hp]; rfl)
  | read m k ih =>
    have hb : ∀ (s : LState) (t : LThread), LInv cf s → s.g.crashed = false → s.threads[i]? = some t →
        t.phase = .sec f held [] ann (.read m k) true → Ends cf clk s i := by
      intro s t hI hcr ht hp
      have hne : t.phase ≠ .idle := by rw [hp]; simp
      have hs : tstep cf clk s.g s.lk t = .ok s.g s.lk { t with phase := .sec f held [] ann (k (load s.g m)) false } := by
        simp only [tstep, hp, if_true]
      exact ends_of_step hI hcr ht hne hs fun hc => .inr
        (ih (load s.g m) _ _ false (one_step hI hcr ht hne hs).2.1 hc (set_self_get ht _) rfl)
    intro s t busy hI hcr ht hp
    cases busy with
    | true => exact hb s t hI hcr ht hp
    | false =>
      have hne : t.phase ≠ .idle := by rw [hp]; simp
      have hs : tstep cf clk s.g s.lk t = .ok s.g s.lk { t with phase := .sec f held [] ann (.read m k) true } := by
        simp only [tstep, hp, Bool.false_eq_true, if_false]
      exact ends_of_step hI hcr ht hne hs fun hc => .inr
        (hb _ _ (one_step hI hcr ht hne hs).2.1 hc (set_self_get ht _) rfl)
  | write m w r =>
    have hb : ∀ (s : LState) (t : LThread), LInv cf s → s.g.crashed = false → s.threads[i]? = some t →
        t.phase = .sec f held [] ann (.write m w r) true → Ends cf clk s i := by
      intro s t hI hcr ht hp
      exact solo_commit hI hcr ht (by rw [hp]; simp) (by simp only [tstep, hp, if_true]; rfl)
    intro s t busy hI hcr ht hp
    cases busy with
    | true => exact hb s t hI hcr ht hp
    | false =>
      have hne : t.phase ≠ .idle := by rw [hp]; simp
      have hs : tstep cf clk s.g s.lk t = .ok s.g s.lk { t with phase := .sec f held [] ann (.write m w r) true } := by
        simp only [tstep, hp, Bool.false_eq_true, if_false]
      exact ends_of_step hI hcr ht hne hs fun hc => .inr
        (hb _ _ (one_step hI hcr ht hne hs).2.1 hc (set_self_get ht _) rfl)

/-- What is left of a section. -/
def left : Phase → Nat
  | .idle => 0
  | .rel _ => 1
  | .sec _ _ todo ann _ _ => 2 * todo.length + (if ann then 0 else 1) + 1

def leftAll (ts : List LThread) : Nat := (ts.map fun t => left t.phase).sum

theorem leftAll_set {ts : List LThread} {i : Nat} {t : LThread} (h : ts[i]? = some t) (t' : LThread) :
    leftAll (ts.set i t') + left t.phase = leftAll ts + left t'.phase := by
  induction ts generalizing i with
  | nil => simp at h
  | cons a as ih =>
    cases i with
    | zero =>
      simp only [List.getElem?_cons_zero, Option.some.injEq] at h; subst h
      simp only [leftAll, List.set_cons_zero, List.map_cons, List.sum_cons]; omega
    | succ i =>
      have := ih (i := i) (by simpa using h)
      simp only [leftAll, List.set_cons_succ, List.map_cons, List.sum_cons] at this ⊢; omega

theorem calm_append {cf : GConf L} {s : LState} {h h' : List (Clock × CEvent)} (h1 : Calm cf s h)
    (h2 : Calm cf (lrun cf s h) h') : Calm cf s (h ++ h') := by
  induction h generalizing s with
  | nil => exact h2
  | cons e h ih => exact ⟨h1.1, ih h1.2 h2⟩

theorem sections_end (cf : GConf L) (clk : Clock) (n : Nat) : ∀ (s : LState), LInv cf s → s.g.crashed = false →
    leftAll s.threads ≤ n → ∃ h, (∀ e ∈ h, ∃ i, e = (clk, CEvent.run i)) ∧ Calm cf s h ∧
      ((lrun cf s h).g.crashed = true ∨ ∀ t ∈ (lrun cf s h).threads, t.phase = .idle) := by
  induction n with
  | zero =>
    intro s hI hcr hn
    refine ⟨[], by simp, trivial, .inr fun t ht => ?_⟩
    obtain ⟨i, hi⟩ := List.getElem?_of_mem ht
    have := leftAll_set (ts := s.threads) hi { t with phase := .idle }
    have hz : left Phase.idle = 0 := rfl
    simp only [hz] at this
    have h0 : left t.phase = 0 := by have : leftAll s.threads = 0 := by omega
                                     omega
    cases hp : t.phase with
    | idle => rfl
    | rel _ => rw [hp] at h0; simp [left] at h0
    | sec f held todo ann b busy => rw [hp] at h0; simp [left] at h0
  | succ n ih =>
    intro s hI hcr hn
    cases Classical.em (∀ t ∈ s.threads, t.phase = .idle) with
    | inl hall => exact ⟨[], by simp, trivial, .inr hall⟩
    | inr hex =>
      have hex : ∃ t ∈ s.threads, t.phase ≠ .idle :=
        Classical.byContradiction fun hno => hex fun t ht =>
          Classical.byContradiction fun hp => hno ⟨t, ht, hp⟩
      obtain ⟨t, ht, hp⟩ := hex
      obtain ⟨i, hi⟩ := List.getElem?_of_mem ht
      have hstep : ∃ (j : Nat) (u : LThread), s.threads[j]? = some u ∧ tstep cf clk s.g s.lk u ≠ .blocked ∧
          u.phase ≠ .idle := by
        cases Classical.em (tstep cf clk s.g s.lk t = .blocked) with
        | inr hb => exact ⟨i, t, hi, hb, hp⟩
        | inl hb =>
          rcases blocked_cases hb with ⟨h1, _⟩ | ⟨f, held, l, c, todo, ann, b, busy, hp', _⟩
          · exact absurd h1 hp
          · exact waiting_progress clk hI 12 i t l hi (by omega) ⟨f, held, c, todo, ann, b, busy, hp'⟩
      obtain ⟨j, u, hj, hnb, hpu⟩ := hstep
      -- a goroutine that has its locks runs to the end of the section
      have fin : Ends cf clk s j → 0 < left u.phase → ∃ h, (∀ e ∈ h, ∃ i, e = (clk, CEvent.run i)) ∧ Calm cf s h ∧
          ((lrun cf s h).g.crashed = true ∨ ∀ t ∈ (lrun cf s h).threads, t.phase = .idle) := by
        rintro ⟨m, t', e1, e2, e3⟩ hpos
        have hr : ∀ e ∈ List.replicate m (clk, CEvent.run j), ∃ i, e = (clk, CEvent.run i) :=
          fun e he => ⟨j, (List.mem_replicate.1 he).2⟩
        rcases e3 with e3 | ⟨e3, e4, e5⟩
        · exact ⟨_, hr, e2, .inl e3⟩
        · have hle := leftAll_set hj t'
          have hz : left Phase.idle = 0 := rfl
          rw [e5, hz] at hle
          obtain ⟨h, h1, h2, h3⟩ := ih _ e1 e3 (by rw [e4]; omega)
          refine ⟨_ ++ h, ?_, calm_append e2 h2, ?_⟩
          · intro e he
            rcases List.mem_append.1 he with he | he
            · exact hr e he
            · exact h1 e he
          · rw [lrun_append]; exact h3
      -- a goroutine that takes a lock has less to do
      have take : ∀ lk' t', tstep cf clk s.g s.lk u = .ok s.g lk' t' → left t'.phase < left u.phase →
          ∃ h, (∀ e ∈ h, ∃ i, e = (clk, CEvent.run i)) ∧ Calm cf s h ∧
          ((lrun cf s h).g.crashed = true ∨ ∀ t ∈ (lrun cf s h).threads, t.phase = .idle) := by
        intro lk' t' hs hlt
        obtain ⟨o1, o2, o3⟩ := one_step hI hcr hj hpu hs
        have hle := leftAll_set hj t'
        obtain ⟨h, h1, h2, h3⟩ := ih _ o2 hcr (by show leftAll (s.threads.set j t') ≤ n; omega)
        refine ⟨(clk, .run j) :: h, ?_, ⟨o3, by rw [o1]; exact h2⟩, by rw [lrun_cons, o1]; exact h3⟩
        intro e he
        rcases List.mem_cons.1 he with rfl | he
        · exact ⟨j, rfl⟩
        · exact h1 e he
      cases hu : u.phase with
      | idle => exact absurd hu hpu
      | rel held => exact fin (solo_rel cf clk j held s u hI hcr hj hu) (by rw [hu]; simp [left])
      | sec f held todo ann b busy =>
        cases todo with
        | nil => exact fin (solo_body cf clk j f held ann b s u busy hI hcr hj hu) (by rw [hu]; simp [left])
        | cons p todo =>
          obtain ⟨l, c⟩ := p
          cases c with
          | false =>
            have hnb' := hnb
            simp only [tstep, hu] at hnb'
            split at hnb'
            · rename_i hh
              refine take _ _ (by simp only [tstep, hu, if_pos hh]; rfl) ?_
              simp only [hu, left, List.length_cons, Bool.false_eq_true, if_false]
              split <;> omega
            · exact absurd rfl hnb'
          | true =>
            cases ann with
            | false =>
              have hnb' := hnb
              simp only [tstep, hu] at hnb'
              split at hnb'
              · rename_i hh
                refine take _ _ (by simp only [tstep, hu, if_pos hh]; rfl) ?_
                simp [hu, left]
              · exact absurd rfl hnb'
            | true =>
              have hnb' := hnb
              simp only [tstep, hu] at hnb'
              split at hnb'
              · rename_i hh
                refine take _ _ (by simp only [tstep, hu, if_pos hh]; rfl) ?_
                simp only [hu, left, List.length_cons, Bool.false_eq_true, if_false, if_true]
                omega
              · exact absurd rfl hnb'

/-- C123: from every state reached while no wipe meets a held lock, the goroutines inside sections can all be run to the end of
their sections, without any new section being entered in between; only a panic can prevent it. -/
theorem C123_sections_end (cf : GConf L) (h : List (Clock × CEvent)) (hc : Calm cf LState.init h) (clk : Clock) :
    ∃ h2, (∀ e ∈ h2, ∃ i, e = (clk, CEvent.run i)) ∧ Calm cf LState.init (h ++ h2) ∧
      ((lrun cf LState.init (h ++ h2)).g.crashed = true ∨
       ∀ t ∈ (lrun cf LState.init (h ++ h2)).threads, t.phase = .idle) := by
  have hI := lrun_inv (linv_init cf) hc
  cases hcr : (lrun cf LState.init h).g.crashed with
  | true => exact ⟨[], by simp, by simpa using hc, .inl (by simpa using hcr)⟩
  | false =>
    obtain ⟨h2, h3, h4, h5⟩ := sections_end cf clk _ _ hI hcr (Nat.le_refl _)
    exact ⟨h2, h3, calm_append hc h4, by rw [lrun_append]; exact h5⟩

/-! The wipe -/

theorem lstep_fatal {cf : GConf L} {s : LState} {clk : Clock} {i : Nat} {t : LThread} (hcr : s.g.crashed = false)
    (hf : s.fatal = false) (ht : s.threads[i]? = some t) (h : tstep cf clk s.g s.lk t = .fatal) :
    (lstep cf s (clk, .run i)).fatal = true := by
  simp only [lstep, hcr, hf, Bool.or_self, Bool.false_eq_true, if_false, ht, h]

theorem lstep_run_ok {cf : GConf L} {s : LState} {clk : Clock} {i : Nat} {t : LThread} (hcr : s.g.crashed = false)
    (hf : s.fatal = false) (ht : s.threads[i]? = some t) {g' : GState} {lk' : LockTab} {t' : LThread}
    (h : tstep cf clk s.g s.lk t = .ok g' lk' t') :
    lstep cf s (clk, .run i) = { s with g := g', lk := lk', threads := s.threads.set i t' } := by
  simp only [lstep, hcr, hf, Bool.or_self, Bool.false_eq_true, if_false, ht, h]

/-- Goroutine `i`, running alone, ends the process. -/
def Dies (cf : GConf L) (clk : Clock) (s : LState) (i : Nat) : Prop :=
  ∃ n, (lrun cf s (List.replicate n (clk, .run i))).fatal = true ∨ (lrun cf s (List.replicate n (clk, .run i))).g.crashed = true

theorem dies_step {cf : GConf L} {s : LState} {clk : Clock} {i : Nat} {t : LThread} (hcr : s.g.crashed = false)
    (hf : s.fatal = false) (ht : s.threads[i]? = some t) {g' : GState} {lk' : LockTab} {t' : LThread}
    (h : tstep cf clk s.g s.lk t = .ok g' lk' t')
    (hn : g'.crashed = false → Dies cf clk { s with g := g', lk := lk', threads := s.threads.set i t' } i) :
    Dies cf clk s i := by
  have h1 := lstep_run_ok hcr hf ht h
  cases hc : g'.crashed with
  | true =>
    refine ⟨1, .inr ?_⟩
    show (lstep cf s (clk, .run i)).g.crashed = true
    rw [h1]; exact hc
  | false =>
    obtain ⟨n, hn⟩ := hn hc
    exact ⟨n + 1, by rw [List.replicate_succ, lrun_cons, h1]; exact hn⟩

theorem dies_rel {cf : GConf L} {s : LState} {clk : Clock} {i : Nat} {t : LThread} (hcr : s.g.crashed = false)
    (hf : s.fatal = false) (ht : s.threads[i]? = some t) (hl : s.lk = fun _ => .zero) {held : List (LockName × Bool)}
    (hh : held ≠ []) (hp : t.phase = .rel held) : Dies cf clk s i := by
  refine ⟨1, .inl (lstep_fatal hcr hf ht ?_)⟩
  cases held with
  | nil => exact absurd rfl hh
  | cons p held =>
    obtain ⟨l, c⟩ := p
    cases c <;> simp [tstep, hp, hl, RW.zero]

theorem dies_commit {cf : GConf L} {s : LState} {clk : Clock} {i : Nat} {t : LThread} (hcr : s.g.crashed = false)
    (hf : s.fatal = false) (ht : s.threads[i]? = some t) (hl : s.lk = fun _ => .zero) {held : List (LockName × Bool)}
    (hh : held ≠ []) {a : Ans} {g : GState} (h : tstep cf clk s.g s.lk t = commit clk a g s.lk t held) :
    Dies cf clk s i := by
  obtain ⟨g', fr, e⟩ := commit_rel clk a g s.lk t held
  rw [e] at h
  refine dies_step hcr hf ht h fun hc => ?_
  exact dies_rel hc hf (set_self_get ht _) hl (held := held.reverse) (by simpa using hh) rfl

theorem dies_body (cf : GConf L) (clk : Clock) (i : Nat) (f : LFrame) (held : List (LockName × Bool)) (hh : held ≠ [])
    (ann : Bool) (b : Locks.Body) : ∀ (s : LState) (t : LThread) (busy : Bool), s.g.crashed = false → s.fatal = false →
      s.threads[i]? = some t → (s.lk = fun _ => .zero) → t.phase = .sec f held [] ann b busy → Dies cf clk s i := by
  induction b with
  | ret r =>
    intro s t busy hcr hf ht hl hp
    exact dies_commit hcr hf ht hl hh (by simp only [tstep, hp]; rfl)
  | peek m r =>
    intro s t busy hcr hf ht hl hp
    exact dies_commit hcr hf ht hl hh (by simp only [tstep, hp]; rfl)
  | read m k ih =>
    have hb : ∀ (s : LState) (t : LThread), s.g.crashed = false → s.fatal = false → s.threads[i]? = some t →
        (s.lk = fun _ => .zero) → t.phase = .sec f held [] ann (.read m k) true → Dies cf clk s i := by
      intro s t hcr hf ht hl hp
      have hs : tstep cf clk s.g s.lk t = .ok s.g s.lk { t with phase := .sec f held [] ann (k (load s.g m)) false } := by
        simp only [tstep, hp, if_true]
      exact dies_step hcr hf ht hs fun hc => ih (load s.g m) _ _ false hc hf (set_self_get ht _) hl rfl
    intro s t busy hcr hf ht hl hp
    cases busy with
    | true => exact hb s t hcr hf ht hl hp
    | false =>
      have hs : tstep cf clk s.g s.lk t = .ok s.g s.lk { t with phase := .sec f held [] ann (.read m k) true } := by
        simp only [tstep, hp, Bool.false_eq_true, if_false]
      exact dies_step hcr hf ht hs fun hc => hb _ _ hc hf (set_self_get ht _) hl rfl
  | write m w r =>
    have hb : ∀ (s : LState) (t : LThread), s.g.crashed = false → s.fatal = false → s.threads[i]? = some t →
        (s.lk = fun _ => .zero) → t.phase = .sec f held [] ann (.write m w r) true → Dies cf clk s i := by
      intro s t hcr hf ht hl hp
      exact dies_commit hcr hf ht hl hh (by simp only [tstep, hp, if_true]; rfl)
    intro s t busy hcr hf ht hl hp
    cases busy with
    | true => exact hb s t hcr hf ht hl hp
    | false =>
      have hs : tstep cf clk s.g s.lk t = .ok s.g s.lk { t with phase := .sec f held [] ann (.write m w r) true } := by
        simp only [tstep, hp, Bool.false_eq_true, if_false]
      exact dies_step hcr hf ht hs fun hc => hb _ _ hc hf (set_self_get ht _) hl rfl

/-- The goroutine holds locks and waits for no more. -/
def holding (t : LThread) : Prop :=
  (∃ f held ann b busy, t.phase = .sec f held [] ann b busy ∧ held ≠ []) ∨ ∃ held, t.phase = .rel held ∧ held ≠ []

/-- C124 is violated: whenever a goroutine is about to wipe the storage while another one holds a lock, the wipe followed by the
other goroutine's remaining steps ends the process, whatever the request was. -/
theorem C124_violated_wipe_ends_process (cf : GConf L) (clk : Clock) (h : List (Clock × CEvent)) {i j : Nat} {t u : LThread}
    (hcr : (lrun cf LState.init h).g.crashed = false) (hf : (lrun cf LState.init h).fatal = false)
    (hi : (lrun cf LState.init h).threads[i]? = some t) (hj : (lrun cf LState.init h).threads[j]? = some u)
    (ht : holding t) (hu : u.phase = .idle ∧ u.frames.head? = some (.pt .wipe)) :
    ∃ n, (lrun cf LState.init (h ++ (clk, .run j) :: List.replicate n (clk, .run i))).fatal = true ∨
      (lrun cf LState.init (h ++ (clk, .run j) :: List.replicate n (clk, .run i))).g.crashed = true := by
  generalize hs : lrun cf LState.init h = s at hcr hf hi hj
  obtain ⟨hp, hh⟩ := hu
  cases hfr : u.frames with
  | nil => rw [hfr] at hh; cases hh
  | cons f fs =>
    rw [hfr] at hh
    simp only [List.head?_cons, Option.some.injEq] at hh
    subst hh
    have e1 := lstep_run_ok (clk := clk) hcr hf hj (show tstep cf clk s.g s.lk u =
      .ok (wipeStorage s.g) (fun _ => .zero) { u with frames := fs } by simp only [tstep, hp, hfr])
    have hij : j ≠ i := by
      rintro rfl
      rw [hi] at hj; cases hj
      rcases ht with ⟨_, _, _, _, _, h1, _⟩ | ⟨_, h1, _⟩ <;> (rw [hp] at h1; cases h1)
    have hd : Dies cf clk (lstep cf s (clk, .run j)) i := by
      rw [e1]
      have hi' : (s.threads.set j { u with frames := fs })[i]? = some t := by
        rw [List.getElem?_set_ne hij]; exact hi
      rcases ht with ⟨f, held, ann, b, busy, h1, h2⟩ | ⟨held, h1, h2⟩
      · exact dies_body cf clk i f held h2 ann b _ t busy hcr hf hi' rfl h1
      · exact dies_rel (s := { s with g := wipeStorage s.g, lk := fun _ => .zero, threads := s.threads.set j { u with frames := fs } })
          hcr hf hi' rfl h2 h1
    obtain ⟨n, hn⟩ := hd
    exact ⟨n, by rw [lrun_append, hs, lrun_cons]; exact hn⟩

/-- C124, what holds: as long as each wipe happens while no lock is held or awaited by a writer, the runtime never ends the
process for an unlock of an unlocked lock. -/
theorem C124_calm_never_fatal_partial (cf : GConf L) (h : List (Clock × CEvent)) (hc : Calm cf LState.init h) :
    (lrun cf LState.init h).fatal = false := (lrun_inv (linv_init cf) hc).nofatal

/-! `Save` -/

/-- The accesses of `Save` still to come when it begins with the map of number `k`. -/
theorem run_save {cf : GConf L} {s : LState} {clk : Clock} {j : Nat} {u : LThread} (hcr : s.g.crashed = false)
    (hf : s.fatal = false) (hj : s.threads[j]? = some u) {m : LockName} {k : Val m → Locks.Body}
    (hp : u.phase = .sec (.pt .save) [] [] false (.read m k) false) :
    ∃ s1 s2 u1 u2, lstep cf s (clk, .run j) = s1 ∧ lstep cf s1 (clk, .run j) = s2 ∧ s1.threads = s.threads.set j u1 ∧
      s2.threads = s.threads.set j u2 ∧ touching u1 = some (m, false) ∧
      u2.phase = .sec (.pt .save) [] [] false (k (load s.g m)) false ∧ s2.g = s.g ∧ s2.fatal = false := by
  have e1 := lstep_run_ok (clk := clk) hcr hf hj (show tstep cf clk s.g s.lk u =
    .ok s.g s.lk { u with phase := .sec (.pt .save) [] [] false (.read m k) true } by
      simp only [tstep, hp, Bool.false_eq_true, if_false])
  refine ⟨_, _, _, { u with phase := .sec (.pt .save) [] [] false (k (load s.g m)) false }, rfl, rfl,
    by rw [e1], ?_, rfl, rfl, ?_, ?_⟩
  all_goals
    rw [e1]
    have e2 := lstep_run_ok (cf := cf) (clk := clk) (i := j)
      (s := { s with threads := s.threads.set j { u with phase := .sec (.pt .save) [] [] false (.read m k) true } })
      hcr hf (set_self_get hj _) (show tstep cf clk s.g s.lk
        { u with phase := .sec (.pt .save) [] [] false (.read m k) true } =
        .ok s.g s.lk { u with phase := .sec (.pt .save) [] [] false (k (load s.g m)) false } by simp only [tstep, if_true])
    rw [e2]
  · simp
  · exact hf

/-- C122 is violated: whenever a goroutine is writing a list of fragments while another one is about to `Save`, the loops of
`Save` can be in the same map at the same time ("concurrent map iteration and map write" ends the process). -/
theorem C122_violated_save_takes_no_lock (cf : GConf L) (clk : Clock) (h : List (Clock × CEvent)) {i j : Nat} {t u : LThread}
    {m : FragMap} (hcr : (lrun cf LState.init h).g.crashed = false) (hf : (lrun cf LState.init h).fatal = false)
    (hi : (lrun cf LState.init h).threads[i]? = some t) (hj : (lrun cf LState.init h).threads[j]? = some u)
    (ht : touching t = some (.frag m, true)) (hu : u.phase = .idle ∧ u.frames.head? = some (.pt .save)) :
    ∃ n u', (lrun cf LState.init (h ++ List.replicate n (clk, .run j))).threads[i]? = some t ∧
      (lrun cf LState.init (h ++ List.replicate n (clk, .run j))).threads[j]? = some u' ∧
      touching u' = some (.frag m, false) := by
  generalize hs : lrun cf LState.init h = s at hcr hf hi hj
  obtain ⟨hp, hh⟩ := hu
  have hij : j ≠ i := by
    rintro rfl
    rw [hi] at hj; cases hj
    simp [touching, hp] at ht
  cases hfr : u.frames with
  | nil => rw [hfr] at hh; cases hh
  | cons f fs =>
    rw [hfr] at hh
    simp only [List.head?_cons, Option.some.injEq] at hh
    subst hh
    have e0 := lstep_run_ok (clk := clk) hcr hf hj (show tstep cf clk s.g s.lk u =
      .ok s.g s.lk ⟨fs, u.fatal, .sec (.pt .save) [] [] false saveSec.body false⟩ by simp only [tstep, hp, hfr]; rfl)
    generalize hs0 : lstep cf s (clk, .run j) = s0 at e0
    obtain ⟨s1, s2, u1, u2, a1, a2, a3, a4, a5, a6, a7, a8⟩ := run_save (cf := cf) (clk := clk) (s := s0) (j := j)
      (m := .frag .sth) (by rw [e0]; exact hcr) (by rw [e0]; exact hf) (by rw [e0]; exact set_self_get hj _) rfl
    have g0 : s0.g = s.g := by rw [e0]
    have l0 : s0.threads[j]? = some ⟨fs, u.fatal, .sec (.pt .save) [] [] false saveSec.body false⟩ := by
      rw [e0]; exact set_self_get hj _
    obtain ⟨s3, s4, u3, u4, b1, b2, b3, b4, b5, b6, b7, b8⟩ := run_save (cf := cf) (clk := clk) (s := s2) (j := j)
      (u := u2) (m := .frag .rev) (by rw [a7, g0]; exact hcr) a8 (by rw [a4]; exact set_self_get l0 _) a6
    have l2 : s2.threads[j]? = some u2 := by rw [a4]; exact set_self_get l0 _
    obtain ⟨s5, s6, u5, u6, c1, c2, c3, c4, c5, c6, c7, c8⟩ := run_save (cf := cf) (clk := clk) (s := s4) (j := j)
      (u := u4) (m := .frag .acc) (by rw [b7, a7, g0]; exact hcr) b8 (by rw [b4]; exact set_self_get l2 _) b6
    have l4 : s4.threads[j]? = some u4 := by rw [b4]; exact set_self_get l2 _
    have i0 : s0.threads[i]? = some t := by rw [e0]; show (s.threads.set j _)[i]? = _; rw [List.getElem?_set_ne hij]; exact hi
    have i2 : s2.threads[i]? = some t := by rw [a4, List.getElem?_set_ne hij]; exact i0
    have i4 : s4.threads[i]? = some t := by rw [b4, List.getElem?_set_ne hij]; exact i2
    cases m with
    | sth =>
      refine ⟨2, u1, ?_⟩
      have er : List.replicate 2 (clk, CEvent.run j) = [(clk, CEvent.run j), (clk, CEvent.run j)] := rfl
      have en : ∀ s, lrun cf s [] = s := fun _ => rfl
      rw [lrun_append, hs, er]
      simp only [lrun_cons, en, hs0, a1, a3]
      exact ⟨by rw [List.getElem?_set_ne hij]; exact i0, set_self_get l0 _, a5⟩
    | rev =>
      refine ⟨4, u3, ?_⟩
      have er : List.replicate 4 (clk, CEvent.run j) = [(clk, CEvent.run j), (clk, CEvent.run j), (clk, CEvent.run j), (clk, CEvent.run j)] := rfl
      have en : ∀ s, lrun cf s [] = s := fun _ => rfl
      rw [lrun_append, hs, er]
      simp only [lrun_cons, en, hs0, a1, a2, b1, b3]
      exact ⟨by rw [List.getElem?_set_ne hij]; exact i2, set_self_get l2 _, b5⟩
    | acc =>
      refine ⟨6, u5, ?_⟩
      have er : List.replicate 6 (clk, CEvent.run j) = [(clk, CEvent.run j), (clk, CEvent.run j), (clk, CEvent.run j), (clk, CEvent.run j), (clk, CEvent.run j), (clk, CEvent.run j)] := rfl
      have en : ∀ s, lrun cf s [] = s := fun _ => rfl
      rw [lrun_append, hs, er]
      simp only [lrun_cons, en, hs0, a1, a2, b1, b2, c1, c3]
      exact ⟨by rw [List.getElem?_set_ne hij]; exact i4, set_self_get l4 _, c5⟩

/-! Concrete schedules -/

namespace Ref

/-- A fragment arrives at G1; its handler runs up to the `n`-th step; the periodic timer fires and takes `k` steps. -/
def lockTrace (n k : Nat) : List (Clock × CEvent) :=
  (clk, .recv 0 { sth with type := .STH_FRAG }) :: List.replicate n (clk, .run 0) ++ (clk, .periodic) ::
    List.replicate k (clk, .run 1)

/-- No wipe in the schedule meets a lock that is held, as a test. -/
def calmB {L : Lib} (cf : GConf L) : LState → List (Clock × CEvent) → Bool
  | _, [] => true
  | s, e :: h =>
    (match e.2 with
     | .run i =>
       match s.threads[i]? with
       | some ⟨.pt .wipe :: _, _, .idle⟩ => s.threads.all fun t => t.phase.toks.isEmpty
       | _ => true
     | _ => true) && calmB cf (lstep cf s e) h

theorem calm_of {L : Lib} {cf : GConf L} {h : List (Clock × CEvent)} : ∀ {s : LState}, calmB cf s h = true → Calm cf s h := by
  induction h with
  | nil => intro _ _; trivial
  | cons e h ih =>
    intro s hc
    simp only [calmB, Bool.and_eq_true] at hc
    refine ⟨?_, ih hc.2⟩
    rintro ⟨_, _, i, ⟨fr, fa, ph⟩, he, ht, hp, hh⟩
    simp only at hp hh
    subst hp
    cases fr with
    | nil => cases hh
    | cons f fs =>
      simp only [List.head?_cons, Option.some.injEq] at hh
      subst hh
      have := hc.1
      simp only [he, ht, List.all_eq_true, List.isEmpty_iff] at this
      exact this

end Ref


open Ref in
/-- The hypotheses of the C122 and C123 theorems: a whole calm schedule in which the handler finishes and the wipe comes last;
the handler has work left and the locks are in use at step 30. -/
example : Calm gconf LState.init (lockTrace 60 10) ∧ Calm gconf LState.init (lockTrace 30 9) ∧
    (∃ t ∈ (lrun gconf LState.init (lockTrace 30 9)).threads, unfinished t) := by
  refine ⟨calm_of (by decide +kernel), calm_of (by decide +kernel), ?_⟩
  have h : (lrun gconf LState.init (lockTrace 30 9)).threads.map (fun t => t.frames.length) = [0, 1] := by decide +kernel
  match hq : (lrun gconf LState.init (lockTrace 30 9)).threads with
  | [] => rw [hq] at h; cases h
  | [a] => rw [hq] at h; simp at h
  | a :: b :: r =>
    rw [hq] at h
    refine ⟨b, by simp, .inr fun e => ?_⟩
    simp [e] at h

open Ref in
/-- The race of `Save` with the handler of a fragment happens. -/
example : (lrun gconf LState.init (lockTrace 35 2)).threads.map touching =
    [some (.frag .sth, true), some (.frag .sth, false)] ∧ Calm gconf LState.init (lockTrace 35 2) :=
  ⟨by decide +kernel, calm_of (by decide +kernel)⟩

open Ref in
/-- The wipe while the handler of a fragment holds the lock of the fragments: the handler's `Unlock` ends the process. Without the
wipe the same handler finishes. -/
example : (lrun gconf LState.init (lockTrace 30 10 ++ List.replicate 10 (clk, .run 0))).fatal = true ∧
    (lrun gconf LState.init (lockTrace 30 9 ++ List.replicate 10 (clk, .run 0))).fatal = false ∧
    (lrun gconf LState.init (lockTrace 30 9)).fatal = false := by decide +kernel

end CTng
