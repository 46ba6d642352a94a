import Verif.Model.Network
import Verif.Proofs.GossiperMain
/- One event at one gossiper, seen from the network. -/
set_option autoImplicit false

namespace CTng
variable {L : Lib} (cf : GConf L)

/-- The program point is the next one of some goroutine. -/
def Pending (c : CState) (f : Frame) : Prop := ∃ t ∈ c.threads, t.frames.head? = some f

/-- The program point is on the stack of some goroutine. -/
def HasFrame (c : CState) (f : Frame) : Prop := ∃ t ∈ c.threads, f ∈ t.frames

theorem Pending.has {c : CState} {f : Frame} (h : Pending c f) : HasFrame c f := by
  obtain ⟨t, ht, hf⟩ := h
  exact ⟨t, ht, List.mem_of_mem_head? hf⟩

/-- Program points a goroutine starts with. -/
def Frame.isStart : Frame → Bool
  | .recv _ _ | .notify _ _ | .request _ _ | .signBlk _ | .save | .wipe => true
  | _ => false

/-- What one event does to a gossiper that is not crashed afterwards: nothing that others can see, or one atomic action. -/
inductive Act (c c' : CState) : Prop
  | idle (h1 : c'.g.storage = c.g.storage) (h2 : c'.g.blacklist = c.g.blacklist) (h3 : c'.g.out = c.g.out)
      (keep : ∀ f, Pending c f → Pending c' f) (rev : ∀ f, HasFrame c' f → HasFrame c f ∨ f.isStart = true)
  | exec (clk : Clock) (f : Frame) (hp : Pending c f) (hg : c'.g = (stepFrame cf clk c.g f).1)
      (keep : ∀ f', f' ≠ f → Pending c f' → Pending c' f')
      (next : ∀ new f', (stepFrame cf clk c.g f).2 = some new → new.head? = some f' → Pending c' f')
      (rev : ∀ f', HasFrame c' f' → HasFrame c f' ∨ ∃ new, (stepFrame cf clk c.g f).2 = some new ∧ f' ∈ new)

theorem pending_append {c : CState} {g : GState} {ts : List Thread} {f : Frame} (h : Pending c f) : Pending ⟨g, c.threads ++ ts⟩ f := by
  obtain ⟨t, ht, hf⟩ := h
  exact ⟨t, List.mem_append_left _ ht, hf⟩

theorem cstep_act (c : CState) (e : Clock × CEvent) (h' : (cstep cf c e).g.crashed = false) : Act cf c (cstep cf c e) := by
  have hsp : ∀ (g : GState) (fs : List Frame) (b : Bool), g.storage = c.g.storage → g.blacklist = c.g.blacklist → g.out = c.g.out →
      (∀ f ∈ fs, f.isStart = true) → Act cf c ⟨g, c.threads ++ [⟨fs, b⟩]⟩ := by
    intro g fs b h1 h2 h3 h4
    refine .idle h1 h2 h3 (fun f hf => pending_append hf) ?_
    rintro f ⟨t, ht, hf⟩
    rcases List.mem_append.1 ht with ht | ht
    · exact .inl ⟨t, ht, hf⟩
    · simp at ht; subst ht; exact .inr (h4 f hf)
  have hid : Act cf c c := .idle rfl rfl rfl (fun _ h => h) (fun _ h => .inl h)
  obtain ⟨clk, ev⟩ := e
  unfold cstep at h' ⊢
  split at h'
  · rename_i hcr; rw [if_pos hcr]; exact hid
  rename_i hcr
  rw [if_neg hcr]
  cases ev with
  | recv n o => exact hsp c.g _ _ rfl rfl rfl (by simp [Frame.isStart])
  | notify n o => exact hsp c.g _ _ rfl rfl rfl (by simp [Frame.isStart])
  | request n o => exact hsp c.g _ _ rfl rfl rfl (by simp [Frame.isStart])
  | periodic => exact hsp c.g _ _ rfl rfl rfl (by simp [Frame.isStart])
  | fire i =>
    simp only
    cases ht : c.g.timers[i]? with
    | none => exact hid
    | some o => exact hsp _ _ _ rfl rfl rfl (by simp [Frame.isStart])
  | run i =>
    simp only at h' ⊢
    cases ht : c.threads[i]? with
    | none => exact hid
    | some t =>
      rw [ht] at h'
      have htm : t ∈ c.threads := List.mem_of_getElem? ht
      have hset : ∀ (t' : Thread), t' ∈ (c.threads.set i t') := by
        intro t'
        have hlt : i < c.threads.length := (List.getElem?_eq_some_iff.1 ht).1
        exact List.mem_set hlt t'
      have hkeep : ∀ (t' t'' : Thread), t'' ∈ c.threads → t'' ≠ t → t'' ∈ c.threads.set i t' := by
        intro t' t'' hm hne
        obtain ⟨j, hj⟩ := List.getElem?_of_mem hm
        have hij : i ≠ j := by rintro rfl; rw [ht] at hj; exact hne (Option.some.inj hj).symm
        refine List.mem_of_getElem? (i := j) ?_
        rw [List.getElem?_set, if_neg hij]; exact hj
      simp only [stepThread] at h' ⊢
      cases hfr : t.frames with
      | nil =>
        simp only
        have hsame : c.threads.set i t = c.threads := by
          obtain ⟨hlt, h⟩ := List.getElem?_eq_some_iff.1 ht
          rw [← h]; exact List.set_getElem_self hlt
        rw [hsame]
        exact hid
      | cons f fs =>
        rw [hfr] at h'
        simp only at h' ⊢
        have hpf : Pending c f := ⟨t, htm, by rw [hfr]; rfl⟩
        rcases hst : stepFrame cf clk c.g f with ⟨s', new⟩
        rw [hst] at h'
        have hrest : ∀ (g : GState) (t' : Thread) f', f' ≠ f → Pending c f' → Pending ⟨g, c.threads.set i t'⟩ f' := by
          rintro g t' f' hne ⟨u, hu, huf⟩
          refine ⟨u, hkeep t' u hu ?_, huf⟩
          rintro rfl
          rw [hfr] at huf
          exact hne (Option.some.inj huf).symm
        cases new with
        | some new =>
          simp only at h' ⊢
          refine .exec clk f hpf (by rw [hst]) (hrest _ _) ?_ ?_
          · intro new' f' hnew hhd
            rw [hst] at hnew
            cases hnew
            refine ⟨_, hset _, ?_⟩
            cases new with
            | nil => simp at hhd
            | cons a b => exact hhd
          · rintro f' ⟨u, hu, huf⟩
            rcases List.mem_or_eq_of_mem_set hu with h1 | h1
            · exact .inl ⟨u, h1, huf⟩
            · subst h1
              rcases List.mem_append.1 huf with h2 | h2
              · exact .inr ⟨new, by rw [hst], h2⟩
              · exact .inl ⟨t, htm, by rw [hfr]; exact List.mem_cons_of_mem _ h2⟩
        | none =>
          simp only at h' ⊢
          by_cases hfat : t.fatal = true
          · rw [if_pos hfat] at h'; cases h'
          · rw [if_neg hfat]
            refine .exec clk f hpf (by rw [hst]) (hrest _ _) ?_ ?_
            · intro new' f' hnew; rw [hst] at hnew; cases hnew
            · rintro f' ⟨u, hu, huf⟩
              rcases List.mem_or_eq_of_mem_set hu with h1 | h1
              · exact .inl ⟨u, h1, huf⟩
              · subst h1; simp at huf

theorem cstep_crashed (c : CState) (e : Clock × CEvent) (h : c.g.crashed = true) : cstep cf c e = c := by
  unfold cstep; rw [if_pos h]

/-- A gossiper that is up was up before. -/
theorem up_before {c : CState} {e : Clock × CEvent} (h : (cstep cf c e).g.crashed = false) : c.g.crashed = false := by
  cases hc : c.g.crashed with
  | false => rfl
  | true => rw [cstep_crashed cf c e hc, hc] at h; cases h

theorem cstep_recv (c : CState) (clk : Clock) (n : Int) (o : GossipObj) (h : c.g.crashed = false) :
    Pending (cstep cf c (clk, .recv n o)) (.recv n o) := by
  unfold cstep
  rw [h]
  exact ⟨⟨[.recv n o], false⟩, by simp, rfl⟩

theorem cstep_notify (c : CState) (clk : Clock) (n : Int) (o : Notification) (h : c.g.crashed = false) :
    Pending (cstep cf c (clk, .notify n o)) (.notify n o) := by
  unfold cstep
  rw [h]
  exact ⟨⟨[.notify n o], false⟩, by simp, rfl⟩

theorem cstep_request (c : CState) (clk : Clock) (n : Int) (o : Notification) (h : c.g.crashed = false) :
    Pending (cstep cf c (clk, .request n o)) (.request n o) := by
  unfold cstep
  rw [h]
  exact ⟨⟨[.request n o], false⟩, by simp, rfl⟩

/-- Outputs are only added. -/
theorem cstep_out (c : CState) (e : Clock × CEvent) : ∃ o, (cstep cf c e).g.out = c.g.out ++ o := by
  obtain ⟨clk, ev⟩ := e
  unfold cstep
  split
  · exact ⟨[], by simp⟩
  · cases ev with
    | recv n o => exact ⟨[], by simp⟩
    | notify n o => exact ⟨[], by simp⟩
    | request n o => exact ⟨[], by simp⟩
    | periodic => exact ⟨[], by simp⟩
    | fire i =>
      simp only
      cases c.g.timers[i]? <;> exact ⟨[], by simp⟩
    | run i =>
      simp only
      cases c.threads[i]? with
      | none => exact ⟨[], by simp⟩
      | some t =>
        simp only [stepThread]
        cases t.frames with
        | nil => exact ⟨[], by simp⟩
        | cons f fs =>
          obtain ⟨o, _, ho⟩ := stepFrame_out cf clk c.g f
          simp only
          rcases hst : stepFrame cf clk c.g f with ⟨s', new⟩
          rw [hst] at ho
          cases new with
          | some new => exact ⟨o, ho⟩
          | none =>
            simp only
            split <;> exact ⟨o, ho⟩

end CTng
