import Verif.Proofs.GossiperMain
/- Counting aggregations under every schedule. -/
set_option autoImplicit false

namespace CTng
variable {L : Lib} (cf : GConf L) (k : GossipID)

/-- The trace entry records an aggregation for `k`. -/
def Out.isFull : Out → Bool
  | .generatedFull k' _ => k' = k
  | _ => false

/-- The program point is about to aggregate for `k`. -/
def Frame.isGen : Frame → Bool
  | .fragGen g => g.getID = k
  | _ => false

/-- Aggregations for `k` so far. -/
def fullCount (s : GState) : Nat := s.out.countP (Out.isFull k)

/-- Goroutines about to aggregate for `k`. -/
def genPending (c : CState) : Nat := (c.threads.map fun t => t.frames.countP (Frame.isGen k)).sum

/-- 1 while fewer than Threshold fragments are kept. -/
def credit (s : GState) : Nat := if cf.crypto.threshold ≤ ((s.storage.fragList k.type k).length : Int) then 0 else 1

/-- No goroutine is about to wipe the storage. -/
def NoWipe (c : CState) : Prop := ∀ t ∈ c.threads, Frame.wipe ∉ t.frames

theorem sum_set {α : Type _} (f : α → Nat) (l : List α) (i : Nat) (t t' : α) (h : l[i]? = some t) :
    ((l.set i t').map f).sum + f t = (l.map f).sum + f t' := by
  induction l generalizing i with
  | nil => simp at h
  | cons a l ih =>
    cases i with
    | zero => simp at h; subst h; simp; omega
    | succ i =>
      simp at h
      have := ih i h
      simp only [List.set_cons_succ, List.map_cons, List.sum_cons]
      omega

theorem countP_ostep {clk : Clock} {s : GState} {f : Frame} {o : List Out} (h : OStep cf clk s f o) :
    o.countP (Out.isFull k) = match f with
      | .fragGen g => if g.getID = k then o.length else 0
      | _ => 0 := by
  cases h with
  | none f => cases f <;> simp
  | signed => simp [Out.isFull]
  | full g o _ => by_cases e : g.getID = k <;> simp [Out.isFull, e]
  | owner => simp [Out.isFull]
  | announce g => simp [List.countP_map, Function.comp_def, Out.isFull]
  | forward g => simp [List.countP_map, Function.comp_def, Out.isFull]
  | ask => simp [Out.isFull]
  | answer => simp [Out.isFull]

theorem generateFULL_some (clk : Clock) (hb : cf.crypto.thresholdScheme = go!"bls") (gs : List GossipObj) (t : GType)
    (hne : gs ≠ []) (hl : cf.crypto.threshold ≤ (gs.length : Int)) : ∃ o, generateFULL cf clk gs t = some o := by
  have hsome : ∀ str, ∃ σ, (SigFragment.fromStr L str).1.sign = some σ := by
    intro str
    unfold SigFragment.fromStr
    split
    · exact ⟨_, rfl⟩
    · split <;> exact ⟨_, rfl⟩
  have hm : ∀ gs : List GossipObj, ∃ r, (gs.map fun g => (SigFragment.fromStr L g.sig.s0).1).mapM
      (fun f : SigFragment L => f.sign) = some r := by
    intro gs
    induction gs with
    | nil => exact ⟨[], rfl⟩
    | cons g gs ih =>
      obtain ⟨r, hr⟩ := ih
      obtain ⟨σ, hσ⟩ := hsome g.sig.s0
      exact ⟨σ :: r, by rw [List.map_cons, List.mapM_cons, hσ, hr]; rfl⟩
  obtain ⟨r, hr⟩ := hm gs
  unfold generateFULL CryptoConfig.thresholdAggregate thresholdAggregate
  rw [if_pos hb, if_neg (by rw [List.length_map]; omega), hr]
  simp only [ThresholdSig.toStr, Option.map_some]
  cases gs with
  | nil => exact absurd rfl hne
  | cons g gs => exact ⟨_, rfl⟩

/-- What one atomic action does to the potential: unchanged, provided an aggregation about to run cannot panic. -/
theorem frame_potential (clk : Clock) (s : GState) (f : Frame) (hwt : f.wt) (hw : f ≠ .wipe) :
    let r := stepFrame cf clk s f
    let n := (r.2.getD []).countP (Frame.isGen k)
    (fullCount k r.1 + n + credit cf k r.1 ≤ fullCount k s + (if f.isGen k then 1 else 0) + credit cf k s) ∧
    ((s.storage.fragList k.type k).length ≤ (r.1.storage.fragList k.type k).length) ∧
    (0 < n → credit cf k r.1 = 0 ∧ r.1.storage.fragList k.type k ≠ []) ∧
    ((f.isGen k = true → cf.crypto.thresholdScheme = go!"bls" ∧ s.storage.fragList k.type k ≠ [] ∧ credit cf k s = 0) →
      fullCount k r.1 + n + credit cf k r.1 = fullCount k s + (if f.isGen k then 1 else 0) + credit cf k s) := by
  intro r n
  obtain ⟨o, ho, he⟩ := stepFrame_out cf clk s f
  have hcnt : fullCount k r.1 = fullCount k s + o.countP (Out.isFull k) := by
    unfold fullCount; rw [he, List.countP_append]
  rw [countP_ostep cf k ho] at hcnt
  have hsto := stepFrame_storage cf clk s f hwt
  by_cases hfs : ∃ g, f = .fragStore g ∧ g.getID = k
  · obtain ⟨g, rfl, rfl⟩ := hfs
    have hty : g.getID.type = g.type := rfl
    simp only at hcnt
    have e1 : r = ((readAndStore cf s g).1, some
        ((if ((readAndStore cf s g).2 : Int) = cf.crypto.threshold - 1 then [.fragGen g] else []) ++
         (if ((readAndStore cf s g).2 : Int) < cf.crypto.threshold then [.sendPeers g] else []))) := rfl
    rw [readAndStore_frag cf hwt] at e1
    split at e1
    · rename_i hlt
      simp only at e1
      have hlen : (r.1.storage.fragList g.getID.type g.getID).length =
          (s.storage.fragList g.getID.type g.getID).length + 1 := by
        rw [e1, hty]
        simp only
        rw [Storage.fragList_appendFrag_same _ _ _ _ hwt]
        simp
      have hn : n = if ((s.storage.fragList g.type g.getID).length : Int) = cf.crypto.threshold - 1 then 1 else 0 := by
        simp only [n, e1, Option.getD_some]
        rw [List.countP_append]
        split <;> simp [Frame.isGen]
      rw [← hty] at hlt hn
      simp only [Frame.isGen, Bool.false_eq_true, if_false, false_implies, true_and, forall_const, credit, hlen, hcnt, hn]
      refine ⟨?_, by omega, ?_, ?_⟩
      · split <;> split <;> split <;> omega
      · intro h0
        refine ⟨?_, by intro e; rw [e] at hlen; simp at hlen⟩
        split at h0 <;> split <;> omega
      · split <;> split <;> split <;> omega
    · rename_i hge
      simp only at e1
      have hs : r.1 = s := by rw [e1]
      have hn : n = 0 := by
        simp only [n, e1, Option.getD_some]
        rw [List.countP_append, if_neg (by omega)]; rfl
      simp only [Frame.isGen, Bool.false_eq_true, if_false, false_implies, true_and, forall_const, hcnt, hs, hn]
      simp
  · have hlist : r.1.storage.fragList k.type k = s.storage.fragList k.type k := by
      generalize hx : (stepFrame cf clk s f).1.storage = x at hsto
      cases hsto with
      | same => rfl
      | payload => cases hk : k.type <;> simp [Storage.fragList, Storage.frags]
      | put => simp
      | frag g _ _ =>
        apply Storage.fragList_appendFrag_ne
        right
        intro e
        exact hfs ⟨g, rfl, e.symm⟩
      | wipe => exact absurd rfl hw
    have hcr : credit cf k r.1 = credit cf k s := by unfold credit; rw [hlist]
    have hn : n = 0 := by
      simp only [n, r]
      rw [List.countP_eq_zero]
      intro f' hf' hg
      cases hnew : (stepFrame cf clk s f).2 with
      | none => rw [hnew] at hf'; simp at hf'
      | some new =>
        rw [hnew] at hf'; simp at hf'
        unfold Frame.isGen at hg
        split at hg
        · rename_i g'
          simp at hg
          cases f with
          | fragStore g =>
            simp only [stepFrame, Option.some.injEq] at hnew
            subst hnew
            rcases List.mem_append.1 hf' with h1 | h1 <;> split at h1 <;> simp at h1
            subst h1
            exact hfs ⟨_, rfl, hg⟩
          | recv n g =>
            simp only [stepFrame] at hnew
            split at hnew <;> simp at hnew
            subst hnew; simp at hf'
          | store g =>
            simp only [stepFrame] at hnew
            split at hnew
            · cases hnew
            · simp at hnew; subst hnew; unfold afterStore at hf'; split at hf' <;> simp at hf'
            · split at hnew
              · simp at hnew; subst hnew; unfold afterStore at hf'; split at hf' <;> simp at hf'
              · simp at hnew; subst hnew; simp at hf'
          | storeNote g =>
            simp [stepFrame] at hnew; subst hnew; unfold afterStore at hf'; split at hf' <;> simp at hf'
          | blk g =>
            simp [stepFrame] at hnew; subst hnew
            split at hf'
            · simp at hf'
            · split at hf' <;> simp at hf'
          | initFrag g =>
            simp [stepFrame] at hnew; subst hnew
            split at hf'
            · simp at hf'
            · split at hf' <;> simp at hf'
          | sign g =>
            simp only [stepFrame] at hnew
            split at hnew
            · cases hnew
            · simp at hnew; subst hnew; simp at hf'
          | fragGen g =>
            simp only [stepFrame] at hnew
            split at hnew
            · cases hnew
            · simp at hnew; subst hnew; simp at hf'
          | handle g => simp [stepFrame] at hnew; subst hnew; split at hf' <;> simp at hf'
          | initFull g => simp [stepFrame] at hnew; subst hnew; split at hf' <;> simp at hf'
          | initMal g => simp [stepFrame] at hnew; subst hnew; split at hf' <;> simp at hf'
          | signBlk g => simp [stepFrame] at hnew; subst hnew; split at hf' <;> simp at hf'
          | conCount g => simp [stepFrame] at hnew; subst hnew; split at hf' <;> simp at hf'
          | fragFull g => simp [stepFrame] at hnew; subst hnew; split at hf' <;> simp at hf'
          | fullBlk g => simp [stepFrame] at hnew; subst hnew; split at hf' <;> simp at hf'
          | fullCount g => simp [stepFrame] at hnew; subst hnew; split at hf' <;> simp at hf'
          | _ => simp [stepFrame] at hnew; subst hnew; simp at hf'
        · cases hg
    rw [hn, hcr, hlist]
    refine ⟨?_, Nat.le_refl _, by omega, ?_⟩
    · rw [hcnt]
      cases f with
      | fragGen g =>
        simp only [Frame.isGen]
        by_cases e : g.getID = k
        · simp only [e, if_true, decide_true]
          cases ho <;> simp
        · simp [e]
      | _ => simp [Frame.isGen]
    · intro hyp
      rw [hcnt]
      cases f with
      | fragGen g =>
        simp only [Frame.isGen] at hyp ⊢
        by_cases e : g.getID = k
        · simp only [e, if_true, decide_true, forall_const] at hyp ⊢
          obtain ⟨h1, h2, h3⟩ := hyp
          unfold credit at h3
          split at h3
          · rename_i hl
            have hty : g.type = k.type := by rw [← e]; rfl
            obtain ⟨x, hx⟩ := generateFULL_some cf clk h1 (getObjectList s k k.type) g.getTargetType h2 hl
            have : (stepFrame cf clk s (.fragGen g)).1.out = s.out ++ [.generatedFull g.getID x] := by
              simp only [stepFrame]
              rw [e, hty, hx]
              rfl
            rw [this] at he
            have := List.append_cancel_left he
            rw [← this]; simp
          · omega
        · simp [e]
      | _ => simp [Frame.isGen]

/-- The invariant between wipes, relative to a starting state. With `ex`, the number of aggregations is exact. -/
structure FullInv (ex : Bool) (n0 : Nat) (c : CState) : Prop where
  wt : ∀ t ∈ c.threads, ∀ f ∈ t.frames, f.wt
  timers : ∀ g ∈ c.g.timers, g.type = .STH_INIT ∨ g.type = .REV_INIT
  noWipe : NoWipe c
  bound : fullCount k c.g + genPending k c + credit cf k c.g ≤ n0
  onTop : ex = true → ∀ t ∈ c.threads, t.frames.tail.countP (Frame.isGen k) = 0
  live : ex = true → 0 < genPending k c → credit cf k c.g = 0 ∧ c.g.storage.fragList k.type k ≠ []
  exact : ex = true → n0 ≤ fullCount k c.g + genPending k c + credit cf k c.g

theorem new_noWipe (clk : Clock) (s : GState) (f : Frame) (new : List Frame) (h : (stepFrame cf clk s f).2 = some new) :
    Frame.wipe ∉ new := by
  intro hf'
  have aft : ∀ g b, Frame.wipe ∉ afterStore g b := by
    intro g b h; unfold afterStore at h; split at h <;> (try split at h) <;> simp at h
  cases f with
  | fragStore g =>
    simp only [stepFrame, Option.some.injEq] at h
    subst h
    rcases List.mem_append.1 hf' with h1 | h1 <;> split at h1 <;> simp at h1
  | recv n g =>
    simp only [stepFrame] at h
    split at h <;> simp at h
    subst h; simp at hf'
  | store g =>
    simp only [stepFrame] at h
    split at h
    · cases h
    · simp at h; subst h; exact aft _ _ hf'
    · split at h
      · simp at h; subst h; exact aft _ _ hf'
      · simp at h; subst h; simp at hf'
  | storeNote g => simp [stepFrame] at h; subst h; exact aft _ _ hf'
  | blk g =>
    simp [stepFrame] at h; subst h
    split at hf'
    · simp at hf'
    · split at hf' <;> simp at hf'
  | initFrag g =>
    simp [stepFrame] at h; subst h
    split at hf'
    · simp at hf'
    · split at hf' <;> simp at hf'
  | sign g =>
    simp only [stepFrame] at h
    split at h
    · cases h
    · simp at h; subst h; simp at hf'
  | fragGen g =>
    simp only [stepFrame] at h
    split at h
    · cases h
    · simp at h; subst h; simp at hf'
  | handle g => simp [stepFrame] at h; subst h; split at hf' <;> simp at hf'
  | initFull g => simp [stepFrame] at h; subst h; split at hf' <;> simp at hf'
  | initMal g => simp [stepFrame] at h; subst h; split at hf' <;> simp at hf'
  | signBlk g => simp [stepFrame] at h; subst h; split at hf' <;> simp at hf'
  | conCount g => simp [stepFrame] at h; subst h; split at hf' <;> simp at hf'
  | fragFull g => simp [stepFrame] at h; subst h; split at hf' <;> simp at hf'
  | fullBlk g => simp [stepFrame] at h; subst h; split at hf' <;> simp at hf'
  | fullCount g => simp [stepFrame] at h; subst h; split at hf' <;> simp at hf'
  | _ => simp [stepFrame] at h; subst h; simp at hf'

/-- One step of a running goroutine, as an equation. -/
theorem cstep_run {c : CState} {clk : Clock} {i : Nat} {t : Thread} {f : Frame} {fs : List Frame}
    (hcr : c.g.crashed = false) (ht : c.threads[i]? = some t) (hf : t.frames = f :: fs) :
    cstep cf c (clk, .run i) = match stepFrame cf clk c.g f with
      | (s, some new) => ⟨s, c.threads.set i { t with frames := new ++ fs }⟩
      | (s, none) => ⟨if t.fatal then { s with crashed := true } else s, c.threads.set i { t with frames := [] }⟩ := by
  unfold cstep
  rw [if_neg (by simp [hcr])]
  simp only [ht, stepThread, hf]
  rcases stepFrame cf clk c.g f with ⟨s, _ | new⟩ <;> rfl

theorem genPending_set {c : CState} {i : Nat} {t t' : Thread} (g : GState) (h : c.threads[i]? = some t) :
    genPending k ⟨g, c.threads.set i t'⟩ + t.frames.countP (Frame.isGen k) =
      genPending k c + t'.frames.countP (Frame.isGen k) :=
  sum_set (fun t => t.frames.countP (Frame.isGen k)) c.threads i t t' h

theorem le_sum_of_mem {l : List Nat} {n : Nat} (h : n ∈ l) : n ≤ l.sum := by
  induction l with
  | nil => simp at h
  | cons a l ih =>
    rw [List.sum_cons]
    rcases List.mem_cons.1 h with rfl | h
    · omega
    · have := ih h; omega

theorem genPending_le {c : CState} {t : Thread} (h : t ∈ c.threads) :
    t.frames.countP (Frame.isGen k) ≤ genPending k c :=
  le_sum_of_mem (List.mem_map_of_mem (f := fun t : Thread => t.frames.countP (Frame.isGen k)) h)

theorem new_gen_head (clk : Clock) (s : GState) (f : Frame) (new : List Frame)
    (h : (stepFrame cf clk s f).2 = some new) : new.tail.countP (Frame.isGen k) = 0 := by
  rw [List.countP_eq_zero]
  intro f' hf' hg
  have aft : ∀ g b f', f' ∈ (afterStore g b).tail → Frame.isGen k f' = true → False := by
    intro g b f' h hg
    unfold afterStore at h
    split at h <;> (try split at h) <;> simp at h <;> (try rcases h with rfl | rfl) <;> (try subst h) <;>
      simp [Frame.isGen] at hg
  cases f with
  | fragStore g =>
    simp only [stepFrame, Option.some.injEq] at h
    subst h
    split at hf' <;> split at hf' <;> simp at hf' <;> subst hf' <;> simp [Frame.isGen] at hg
  | recv n g =>
    simp only [stepFrame] at h
    split at h <;> simp at h
    subst h; simp at hf'
  | store g =>
    simp only [stepFrame] at h
    split at h
    · cases h
    · simp at h; subst h; exact aft _ _ _ hf' hg
    · split at h
      · simp at h; subst h; exact aft _ _ _ hf' hg
      · simp at h; subst h; simp at hf'
  | storeNote g => simp [stepFrame] at h; subst h; exact aft _ _ _ hf' hg
  | blk g =>
    simp [stepFrame] at h; subst h
    split at hf'
    · simp at hf'
    · split at hf' <;> simp at hf'
  | initFrag g =>
    simp [stepFrame] at h; subst h
    split at hf'
    · simp at hf'
    · split at hf' <;> simp at hf'
  | sign g =>
    simp only [stepFrame] at h
    split at h
    · cases h
    · simp at h; subst h; simp at hf'
  | fragGen g =>
    simp only [stepFrame] at h
    split at h
    · cases h
    · simp at h; subst h; simp at hf'
  | handle g => simp [stepFrame] at h; subst h; split at hf' <;> simp at hf'
  | initFull g => simp [stepFrame] at h; subst h; split at hf' <;> simp at hf'
  | initMal g => simp [stepFrame] at h; subst h; split at hf' <;> simp at hf'
  | signBlk g => simp [stepFrame] at h; subst h; split at hf' <;> simp at hf'
  | conCount g => simp [stepFrame] at h; subst h; split at hf' <;> simp at hf'
  | fragFull g => simp [stepFrame] at h; subst h; split at hf' <;> simp at hf'
  | fullBlk g => simp [stepFrame] at h; subst h; split at hf' <;> simp at hf'
  | fullCount g => simp [stepFrame] at h; subst h; split at hf' <;> simp at hf'
  | _ => simp [stepFrame] at h; subst h; simp at hf'

theorem credit_mono {s s' : GState}
    (h : (s.storage.fragList k.type k).length ≤ (s'.storage.fragList k.type k).length) (h0 : credit cf k s = 0) :
    credit cf k s' = 0 := by
  unfold credit at *
  split at h0
  · rw [if_pos (by omega)]
  · omega

theorem countP_tail_append {p : Frame → Bool} (new fs : List Frame) (h1 : new.tail.countP p = 0) (h2 : fs.countP p = 0) :
    (new ++ fs).tail.countP p = 0 := by
  cases new with
  | nil =>
    cases fs with
    | nil => rfl
    | cons a l => simp [List.countP_cons] at h2 ⊢; exact h2.1
  | cons a l => rw [List.cons_append, List.tail_cons, List.countP_append, h2]; exact h1

theorem FullInv.step {ex : Bool} {n0 : Nat} {c : CState} (hb : ex = true → cf.crypto.thresholdScheme = go!"bls")
    (H : FullInv cf k ex n0 c) (e : Clock × CEvent) (he : e.2 ≠ .periodic) :
    FullInv cf k ex n0 (cstep cf c e) := by
  obtain ⟨clk, ev⟩ := e
  by_cases hcr : c.g.crashed = true
  · have : cstep cf c (clk, ev) = c := by unfold cstep; rw [if_pos hcr]
    rw [this]; exact H
  have hcr' : c.g.crashed = false := by simpa using hcr
  have spawn : ∀ (g : GState) (f : Frame) (fatal : Bool), g.storage = c.g.storage → g.out = c.g.out →
      (∀ x ∈ g.timers, x ∈ c.g.timers) →
      f.wt → f ≠ .wipe → Frame.isGen k f = false → FullInv cf k ex n0 ⟨g, c.threads ++ [⟨[f], fatal⟩]⟩ := by
    intro g f fatal hs ho htm hwt hnw hng
    have hp : genPending k ⟨g, c.threads ++ [⟨[f], fatal⟩]⟩ = genPending k c := by
      simp [genPending, hng]
    have h1 : fullCount k g = fullCount k c.g := by unfold fullCount; rw [ho]
    have h2 : credit cf k g = credit cf k c.g := by unfold credit; rw [hs]
    refine ⟨?_, fun x hx => H.timers x (htm x hx), ?_, ?_, ?_, ?_, ?_⟩
    · intro t ht f' hf'
      rcases List.mem_append.1 ht with h | h
      · exact H.wt t h f' hf'
      · simp at h; subst h; simp at hf'; subst hf'; exact hwt
    · intro t ht hf'
      rcases List.mem_append.1 ht with h | h
      · exact H.noWipe t h hf'
      · simp at h; subst h; simp at hf'; exact hnw hf'.symm
    · rw [hp]; simp only [h1, h2]; exact H.bound
    · intro hx t ht
      rcases List.mem_append.1 ht with h | h
      · exact H.onTop hx t h
      · simp at h; subst h; rfl
    · intro hx; rw [hp]; simp only [h2, hs]; exact H.live hx
    · intro hx; rw [hp]; simp only [h1, h2]; exact H.exact hx
  cases ev with
  | periodic => exact absurd rfl he
  | recv n o =>
    have := spawn c.g (.recv n o) false rfl rfl (fun _ h => h) trivial (by simp) rfl
    simpa [cstep, hcr'] using this
  | notify n o =>
    have := spawn c.g (.notify n o) false rfl rfl (fun _ h => h) trivial (by simp) rfl
    simpa [cstep, hcr'] using this
  | request n o =>
    have := spawn c.g (.request n o) false rfl rfl (fun _ h => h) trivial (by simp) rfl
    simpa [cstep, hcr'] using this
  | fire i =>
    cases hi : c.g.timers[i]? with
    | none =>
      have : cstep cf c (clk, .fire i) = c := by simp [cstep, hcr', hi]
      rw [this]; exact H
    | some o =>
      have hty := H.timers o (List.mem_of_getElem? hi)
      have := spawn { c.g with timers := c.g.timers.eraseIdx i } (.signBlk o) true rfl rfl
        (fun x hx => List.mem_of_mem_eraseIdx hx) (by rcases hty with h | h <;> simp [Frame.wt, h, GType.isInit])
        (by simp) rfl
      have e : cstep cf c (clk, .fire i) =
          ⟨{ c.g with timers := c.g.timers.eraseIdx i }, c.threads ++ [⟨[.signBlk o], true⟩]⟩ := by
        simp [cstep, hcr', hi]
      rw [e]; exact this
  | run i =>
    cases ht : c.threads[i]? with
    | none =>
      have : cstep cf c (clk, .run i) = c := by simp [cstep, hcr', ht]
      rw [this]; exact H
    | some t =>
      have htm : t ∈ c.threads := List.mem_of_getElem? ht
      cases hf : t.frames with
      | nil =>
        have e : (cstep cf c (clk, .run i)) = ⟨c.g, c.threads.set i t⟩ := by
          simp [cstep, hcr', ht, stepThread, hf]
        have e2 : c.threads.set i t = c.threads := by
          apply List.ext_getElem?
          intro j
          rw [List.getElem?_set]
          split
          · rename_i e; subst e; rw [ht]; simp [(List.getElem?_eq_some_iff.1 ht).1]
          · rfl
        rw [e, e2]; exact H
      | cons f fs =>
        rw [cstep_run cf hcr' ht hf]
        have hwt : f.wt := H.wt t htm f (by rw [hf]; simp)
        have hnw : f ≠ .wipe := by intro e; exact H.noWipe t htm (by rw [hf, e]; simp)
        obtain ⟨p1, p2, p3, p4⟩ := frame_potential cf k clk c.g f hwt hnw
        have hnew := wt_new cf clk c.g f hwt
        have hnw' := new_noWipe cf clk c.g f
        have hhead := new_gen_head cf k clk c.g f
        have htim := stepFrame_timers cf clk c.g f
        have hcf : t.frames.countP (Frame.isGen k) = fs.countP (Frame.isGen k) + (if Frame.isGen k f then 1 else 0) := by
          rw [hf, List.countP_cons]
        have hle := genPending_le k htm
        rcases hst : stepFrame cf clk c.g f with ⟨s', r⟩
        rw [hst] at p1 p2 p3 p4 hnew hnw' hhead htim
        simp only at p1 p2 p3 p4 hnew hnw' hhead htim
        have main : ∀ (s'' : GState) (new : List Frame), s''.storage = s'.storage → s''.out = s'.out →
            s''.timers = s'.timers →
            (∀ f' ∈ new, f'.wt ∧ f' ≠ .wipe) → (ex = true → new.tail.countP (Frame.isGen k) = 0) →
            (new.countP (Frame.isGen k) = (r.getD []).countP (Frame.isGen k) + fs.countP (Frame.isGen k) ∨
              (r = none ∧ new = [])) →
            FullInv cf k ex n0 ⟨s'', c.threads.set i { t with frames := new }⟩ := by
          intro s'' new hs ho htm' hn1 hn2 hn3
          have h1 : fullCount k s'' = fullCount k s' := by unfold fullCount; rw [ho]
          have h2 : credit cf k s'' = credit cf k s' := by unfold credit; rw [hs]
          have hp := genPending_set k (t' := { t with frames := new }) s'' ht
          have hbound := H.bound
          have hmono : (new.countP (Frame.isGen k) ≤ (r.getD []).countP (Frame.isGen k) + fs.countP (Frame.isGen k)) := by
            rcases hn3 with h | ⟨_, rfl⟩
            · omega
            · simp
          refine ⟨?_, ?_, ?_, ?_, ?_, ?_, ?_⟩
          · intro t' ht' f' hf'
            rcases List.mem_or_eq_of_mem_set ht' with h | h
            · exact H.wt t' h f' hf'
            · subst h; exact (hn1 f' hf').1
          · intro x hx
            simp only at hx
            rw [htm'] at hx
            rcases htim with h | ⟨g, rfl, h⟩
            · rw [h] at hx; exact H.timers x hx
            · rw [h] at hx
              rcases List.mem_append.1 hx with h | h
              · exact H.timers x h
              · simp at h; subst h; exact hwt
          · intro t' ht' hf'
            rcases List.mem_or_eq_of_mem_set ht' with h | h
            · exact H.noWipe t' h hf'
            · subst h; exact (hn1 _ hf').2 rfl
          · simp only [h1, h2] at *; omega
          · intro hx t' ht'
            rcases List.mem_or_eq_of_mem_set ht' with h | h
            · exact H.onTop hx t' h
            · subst h; exact hn2 hx
          · intro hx hpos
            have hfs0 := H.onTop hx t htm
            rw [hf] at hfs0
            simp only [List.tail_cons] at hfs0
            simp only [h2, hs] at hpos ⊢
            by_cases hn0 : 0 < (r.getD []).countP (Frame.isGen k)
            · exact p3 hn0
            · have : 0 < genPending k c := by simp only at hp; omega
              obtain ⟨l1, l2⟩ := H.live hx this
              refine ⟨credit_mono cf k p2 l1, ?_⟩
              intro e0
              rw [e0] at p2
              exact l2 (List.eq_nil_of_length_eq_zero (by simpa using p2))
          · intro hx
            have hfs0 := H.onTop hx t htm
            rw [hf] at hfs0
            simp only [List.tail_cons] at hfs0
            have p4' := p4 (fun hg => by
              have : 0 < genPending k c := by rw [hcf, hg] at hle; simp at hle; omega
              obtain ⟨l1, l2⟩ := H.live hx this
              exact ⟨hb hx, l2, l1⟩)
            have hex := H.exact hx
            have hnc : new.countP (Frame.isGen k) = (r.getD []).countP (Frame.isGen k) := by
              rcases hn3 with h | ⟨h1, rfl⟩
              · omega
              · rw [h1]; rfl
            simp only [h1, h2] at *; omega
        cases r with
        | none =>
          refine main _ [] ?_ ?_ ?_ (by simp) (fun _ => rfl) (.inr ⟨rfl, rfl⟩) <;> (cases t.fatal <;> rfl)
        | some new =>
          refine main s' (new ++ fs) rfl rfl rfl ?_ ?_ ?_
          · intro f' hf'
            rcases List.mem_append.1 hf' with h | h
            · exact ⟨hnew new rfl f' h, fun e => hnw' new rfl (e ▸ h)⟩
            · exact ⟨H.wt t htm f' (by rw [hf]; simp [h]), fun e => H.noWipe t htm (by rw [hf, ← e]; simp [h])⟩
          · intro hx
            have hfs0 := H.onTop hx t htm
            rw [hf] at hfs0
            exact countP_tail_append _ _ (hhead new rfl) hfs0
          · left; simp [List.countP_append]

end CTng
