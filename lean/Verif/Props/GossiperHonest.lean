import Verif.Props.GossiperSeq3
/- C19, what holds: an entity whose delivered statements all carry one signature is never convicted of equivocation. -/
set_option autoImplicit false

namespace CTng
variable {L : Lib}

/-- The object was posted to the gossiper. -/
def Delivered (h : History) (g : GossipObj) : Prop := ∃ clk n, (clk, .recv n g) ∈ h

/-- Everything posted to the gossiper about entity `x` is consistent: no conflict proof naming `x`, every STH_INIT or
REV_INIT naming `x` has a signer, and two of the same type and period carry the same signatures. -/
structure Consistent (x : Str) (h : History) : Prop where
  noCon : ∀ g, Delivered h g → g.type = .CON_INIT → g.payload.p0 ≠ x
  signer : ∀ g, Delivered h g → (g.type = .STH_INIT ∨ g.type = .REV_INIT) → g.payload.p0 = x → g.signer ≠ []
  same : ∀ g g', Delivered h g → Delivered h g' → (g.type = .STH_INIT ∨ g.type = .REV_INIT) → g'.type = g.type →
    g.payload.p0 = x → g'.payload.p0 = x → g'.period = g.period → g'.sig = g.sig

theorem Delivered.mono {h : History} {g : GossipObj} (d : Delivered h g) (e : Clock × CEvent) : Delivered (h ++ [e]) g := by
  obtain ⟨clk, n, d⟩ := d; exact ⟨clk, n, by simp [d]⟩

theorem Consistent.pre {x : Str} {h : History} {e : Clock × CEvent} (c : Consistent x (h ++ [e])) : Consistent x h where
  noCon := fun g d => c.noCon g (d.mono e)
  signer := fun g d => c.signer g (d.mono e)
  same := fun g g' d d' => c.same g g' (d.mono e) (d'.mono e)

/-- What is known about an object inside the gossiper. -/
def Good (x : Str) (h : History) (g : GossipObj) : Prop :=
  g.payload.p0 = x → g.type ≠ .CON_INIT ∧ (g.type = .STH_INIT ∨ g.type = .REV_INIT → Delivered h g)

theorem Good.mono {x : Str} {h : History} {g : GossipObj} (w : Good x h g) (e : Clock × CEvent) : Good x (h ++ [e]) g :=
  fun hp => ⟨(w hp).1, fun ht => ((w hp).2 ht).mono e⟩

theorem Good.of_type {x : Str} {h : History} {g : GossipObj} (h1 : g.type ≠ .CON_INIT) (h2 : g.type ≠ .STH_INIT)
    (h3 : g.type ≠ .REV_INIT) : Good x h g :=
  fun _ => ⟨h1, fun ht => by rcases ht with ht | ht <;> contradiction⟩

/-- The object a program point works on, if it may later be stored. -/
def Frame.good (x : Str) (h : History) : Frame → Prop
  | .recv _ g | .recon g | .handle g | .blk g | .initFull g | .initFrag g | .initMal g | .store g | .conCount g
  | .fragFull g | .fragStore g | .fragGen g | .fullBlk g | .fullCount g => Good x h g
  | .initCon g => Good x h g ∧ g.payload.p0 ≠ x
  | _ => True

theorem Frame.good.mono {x : Str} {h : History} {f : Frame} (w : f.good x h) (e : Clock × CEvent) : f.good x (h ++ [e]) := by
  cases f <;> first | exact Good.mono w e | exact ⟨Good.mono w.1 e, w.2⟩ | trivial

theorem good_afterStore (x : Str) (h : History) (g : GossipObj) (b : Bool) : ∀ f ∈ afterStore g b, f.good x h := by
  intro f hf
  unfold afterStore at hf
  split at hf <;> (try split at hf) <;> simp at hf <;> (try (rcases hf with rfl | rfl | rfl)) <;>
    (try (rcases hf with rfl | rfl)) <;> (try subst hf) <;> trivial

theorem honestInv (cf : GConf L) (x : Str) (hx : x ≠ []) :
    HInv cf (fun h s => Consistent x h → ∀ t k o, (s.storage.objs t).get k = some o → Good x h o)
      (fun h _ f => Consistent x h → f.good x h) where
  init := by intro _ t k o h; simp [GState.init] at h
  step := by
    intro h clk i s f hs hcr hq hf ht r h'
    have hmain := (mainInv cf).holds cf h
    rw [Holds, hs] at hmain
    obtain ⟨th, hth, hhead⟩ := ht
    have hwt : f.wt := (hmain.2 th (List.mem_of_getElem? hth) f (by
      cases hfr : th.frames with
      | nil => rw [hfr] at hhead; cases hhead
      | cons a l => rw [hfr] at hhead; simp at hhead; subst hhead; simp)).1
    have hst := hmain.1.storage
    refine ⟨?_, fun f' hf' hc => (hf' hc.pre).mono _, ?_⟩
    · intro hc t k o ho
      have hS := stepFrame_storage cf clk s.g f hwt
      change ((stepFrame cf clk s.g f).1.storage.objs t).get k = some o at ho
      generalize (stepFrame cf clk s.g f).1.storage = st at hS ho
      cases hS with
      | same => exact (hq hc.pre t k o ho).mono _
      | payload n g _ _ _ => exact (hq hc.pre t k o (by cases t <;> exact ho)).mono _
      | put g hv hobj _ =>
        by_cases e : t = g.type
        · subst e
          rw [Storage.objs_putObj_same _ _ _ _ hobj, GoMap.get_set] at ho
          split at ho
          · cases ho; exact Good.mono (hf hc.pre) _
          · exact (hq hc.pre _ k o ho).mono _
        · rw [Storage.objs_putObj_ne _ _ _ e] at ho; exact (hq hc.pre t k o ho).mono _
      | frag g _ _ => exact (hq hc.pre t k o (by simpa using ho)).mono _
      | wipe =>
        by_cases e : t = .CON_INIT
        · subst e; exact (hq hc.pre .CON_INIT k o ho).mono _
        · cases t <;> simp_all [Storage.objs, Storage.init]
    · intro new hnew f' hf' hc
      have hfg := hf hc.pre
      cases f with
      | recv n g =>
        simp only [r, stepFrame] at hnew
        split at hnew <;> simp at hnew
        subst hnew; simp at hf'; subst hf'; exact Good.mono hfg _
      | recon g =>
        simp only [r, stepFrame, Option.some.injEq] at hnew; subst hnew; simp at hf'; subst hf'
        split
        · rename_i ho
          exact Good.of_type (by simp [reconstructPayload, ho.2]) (by simp [reconstructPayload, ho.2])
            (by simp [reconstructPayload, ho.2])
        · exact Good.mono hfg _
      | handle g =>
        simp only [r, stepFrame, Option.some.injEq] at hnew; subst hnew
        split at hf'
        · simp at hf'
        · simp at hf'; subst hf'; exact Good.mono hfg _
      | blk g =>
        simp only [r, stepFrame, Option.some.injEq] at hnew; subst hnew
        split at hf'
        · simp at hf'
        · have : ∀ f : Frame, (f = .initFull g ∨ f = .conCount g ∨ f = .fragFull g ∨ f = .fullBlk g) → f.good x h' := by
            rintro f (rfl | rfl | rfl | rfl) <;> exact Good.mono hfg _
          apply this
          cases ht : g.type <;> simp [ht] at hf' <;> simp [hf']
      | initFull g =>
        simp only [r, stepFrame, Option.some.injEq] at hnew; subst hnew
        split at hf'
        · simp at hf'
        · simp at hf'; subst hf'; exact Good.mono hfg _
      | initFrag g =>
        simp only [r, stepFrame, Option.some.injEq] at hnew; subst hnew
        split at hf'
        · simp at hf'
        · have : ∀ f : Frame, (f = .store g ∨ f = .initMal g) → f.good x h' := by
            rintro f (rfl | rfl) <;> exact Good.mono hfg _
          apply this
          cases ht : g.type <;> simp [ht] at hf' <;> simp [hf']
      | initMal g =>
        simp only [r, stepFrame, Option.some.injEq] at hnew; subst hnew
        split at hf'
        · rename_i hm
          simp at hf'; subst hf'
          refine ⟨Good.mono hfg _, ?_⟩
          intro hp
          have hd := (hfg hp).2 hwt
          have hsn := hc.pre.signer g hd hwt hp
          have hm' : g.signer = (getObject s.g g.getID g.type).signer ∧ g.sig ≠ (getObject s.g g.getID g.type).sig := by
            unfold isMalicious at hm
            rcases hwt with e | e <;> rw [e] at hm ⊢ <;> simpa using hm
          cases hget : (s.g.storage.objs g.type).get g.getID with
          | none => simp [getObject, hget, GossipObj.zero] at hm'; exact hsn hm'.1
          | some o =>
            simp only [getObject, hget, Option.getD_some] at hm'
            obtain ⟨e1, e2, _⟩ := hst.objs _ _ _ hget
            have ep : o.payload.p0 = x := (congrArg GossipID.entity e1).trans hp
            have eper : g.period = o.period := (congrArg GossipID.period e1).symm
            have hot : o.type = .STH_INIT ∨ o.type = .REV_INIT := by rw [e2]; exact hwt
            have hod := ((hq hc.pre _ _ _ hget) ep).2 hot
            exact hm'.2 (hc.pre.same o g hod hd hot e2.symm ep hp eper)
        · simp at hf'; subst hf'; exact Good.mono hfg _
      | initCon g =>
        simp only [r, stepFrame, Option.some.injEq] at hnew; subst hnew; simp at hf'; subst hf'
        intro hp
        exfalso
        simp only [generateCON] at hp
        cases hget : (s.g.storage.objs g.type).get g.getID with
        | none => simp [getObject, hget, GossipObj.zero] at hp; exact hx hp
        | some o =>
          simp only [getObject, hget, Option.getD_some] at hp
          obtain ⟨e1, _, _⟩ := hst.objs _ _ _ hget
          exact hfg.2 ((congrArg GossipID.entity e1).symm.trans hp)
      | store g =>
        simp only [r, stepFrame] at hnew
        split at hnew
        · cases hnew
        · simp at hnew; subst hnew; exact good_afterStore x _ g _ f' hf'
        · split at hnew
          · simp at hnew; subst hnew; exact good_afterStore x _ g _ f' hf'
          · simp at hnew; subst hnew; simp at hf'; subst hf'; trivial
      | storeBl g => simp [r, stepFrame] at hnew; subst hnew; simp at hf'; subst hf'; trivial
      | storeNote g => simp [r, stepFrame] at hnew; subst hnew; exact good_afterStore x _ g _ f' hf'
      | signBlk g =>
        simp [r, stepFrame] at hnew; subst hnew
        split at hf'
        · simp at hf'
        · simp at hf'; subst hf'; trivial
      | sign g =>
        simp only [r, stepFrame, signStatement] at hnew
        cases hg : generateFRAG cf g with
        | none => simp [hg] at hnew
        | some fr =>
          simp [hg] at hnew; subst hnew; simp at hf'; subst hf'
          have := generateFRAG_type hg
          have hw : g.type.isInit = true := hwt
          refine Good.of_type ?_ ?_ ?_ <;> rw [this] <;> cases hgt : g.type <;> simp_all [GType.isInit]
      | conCount g =>
        simp only [r, stepFrame, Option.some.injEq] at hnew; subst hnew
        split at hf'
        · simp at hf'; subst hf'; exact Good.mono hfg _
        · simp at hf'
      | fragFull g =>
        simp only [r, stepFrame, Option.some.injEq] at hnew; subst hnew
        split at hf'
        · simp at hf'
        · simp at hf'; subst hf'; exact Good.mono hfg _
      | fragStore g =>
        simp only [r, stepFrame, Option.some.injEq] at hnew; subst hnew
        rcases List.mem_append.1 hf' with h1 | h1 <;> split at h1 <;> simp at h1 <;> subst h1
        · exact Good.mono hfg _
        · trivial
      | fragGen g =>
        simp only [r, stepFrame] at hnew
        cases hg : generateFULL cf clk (getObjectList s.g g.getID g.type) g.getTargetType with
        | none => simp [hg] at hnew
        | some o =>
          simp [hg] at hnew; subst hnew; simp at hf'; subst hf'
          have h1 := generateFULL_type hg
          have h2 := getTargetType_isFull (g := g) hwt
          rw [← h1] at h2
          refine Good.of_type ?_ ?_ ?_ <;> (intro e; simp [e, GType.isFull] at h2)
      | fullBlk g =>
        simp only [r, stepFrame, Option.some.injEq] at hnew; subst hnew
        split at hf'
        · simp at hf'
        · simp at hf'; subst hf'; exact Good.mono hfg _
      | fullCount g =>
        simp only [r, stepFrame, Option.some.injEq] at hnew; subst hnew
        split at hf' <;> simp at hf' <;> subst hf'
        · exact Good.mono hfg _
        · trivial
      | _ => simp [r, stepFrame] at hnew; subst hnew; simp at hf'
  crash := fun _ _ hq => ⟨hq, fun _ hf => hf⟩
  idle := fun _ e _ hq => ⟨fun hc t k o ho => (hq hc.pre t k o ho).mono e, fun _ hf hc => (hf hc.pre).mono e⟩
  spawnRecv := by
    intro h clk n o s _ hc hp
    have hd : Delivered (h ++ [(clk, .recv n o)]) o := ⟨clk, n, by simp⟩
    exact ⟨fun e => hc.noCon o hd e hp, fun _ => hd⟩
  spawn := fun _ _ _ => ⟨fun _ _ _ => trivial, fun _ _ _ => trivial, fun _ => trivial, fun _ => trivial⟩
  fire := fun _ _ _ _ hq _ => ⟨hq, fun _ => trivial, fun _ hf => hf⟩

/-- C19, what holds, under every schedule: if everything posted to the gossiper about an entity is consistent (no
conflict proof naming it, one signature pair per statement type and period), the gossiper holds no conflict proof naming
it, and if the entity is blacklisted then on a full accusation that was stored. Missing: the adversary can vary the
second signature slot or post a fabricated proof (see `C19_violated_replay_convicts` and C15). -/
theorem C19_consistent_entity_not_convicted_partial (cf : GConf L) (h : History) (x : Str) (hx : x ≠ [])
    (hc : Consistent x h) :
    (∀ k o, HeldAs (crun cf CState.init h).g.storage k o .CON_INIT → o.payload.p0 ≠ x) ∧
    ((crun cf CState.init h).g.blacklist.has x = true → ∃ a, a.type = .ACC_FULL ∧ a.payload.p0 = x ∧
      a.verify cf.crypto = .ok ∧ WasStored cf h a) := by
  refine ⟨?_, ?_⟩
  · intro k o ho hp
    have := ((honestInv cf x hx).holds cf h).1 hc .CON_INIT k o (heldAs_iff.1 ho) hp
    exact this.1 ((((mainInv cf).holds cf h).1.storage.objs _ _ _ (heldAs_iff.1 ho)).2.1)
  · intro hb
    obtain ⟨g, ht, hp, hv, hw⟩ := ((mainInv cf).holds cf h).1.blacklist x hb
    rcases ht with ht | ht
    · exfalso
      obtain ⟨h1, h2, rfl, hget⟩ := hw
      have hc1 : Consistent x h1 := ⟨fun g ⟨c, n, d⟩ => hc.noCon g ⟨c, n, by simp [d]⟩,
        fun g ⟨c, n, d⟩ => hc.signer g ⟨c, n, by simp [d]⟩,
        fun g g' ⟨c, n, d⟩ ⟨c', n', d'⟩ => hc.same g g' ⟨c, n, by simp [d]⟩ ⟨c', n', by simp [d']⟩⟩
      exact (((honestInv cf x hx).holds cf h1).1 hc1 _ _ _ hget hp).1 ht
    · exact ⟨g, ht, hp, hv, hw⟩

/-- Two deliveries of the same STH, interleaved. -/
example : Consistent (go!"L1") ([(Ref.clk, .recv 10 Ref.sth), (Ref.clk, .recv 10 Ref.sth)] ++
    (List.replicate 30 [(Ref.clk, .run 0), (Ref.clk, .run 1)]).flatten) := by
  have key : ∀ g, Delivered ([(Ref.clk, .recv 10 Ref.sth), (Ref.clk, .recv 10 Ref.sth)] ++
      (List.replicate 30 [(Ref.clk, .run 0), (Ref.clk, .run 1)]).flatten) g → g = Ref.sth := by
    rintro g ⟨clk, n, hg⟩
    simp at hg
    exact hg.2.2
  refine ⟨?_, ?_, ?_⟩
  · intro g hg; rw [key g hg]; decide
  · intro g hg; rw [key g hg]; decide
  · intro g g' hg hg'; rw [key g hg, key g' hg']; simp

end CTng
