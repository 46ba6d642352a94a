import Verif.Props.Monitor
/- C78: which of the objects delivered to a monitor reach its client updates. -/
set_option autoImplicit false

namespace CTng
open Mon
variable {L : Lib} (X : XLib) (c : MonConf L)

/-- In the history `evs` of a fresh monitor the end of a period writes the update `u`. -/
def Published (evs : List MonEvent) (u : ClientUpdate) : Prop :=
  ∃ a clk b s s', evs = a ++ .finish clk :: b ∧ monRun X c initMonitor a = some s ∧
    monStep X c s (.finish clk) = some s' ∧ s'.files.get (periodIO c clk) = some u

/-- The update carries the object. -/
def ClientUpdate.Lists (u : ClientUpdate) (g : GossipObj) : Prop :=
  g ∈ u.sths ∨ g ∈ u.revs ∨ g ∈ u.pomCONs ∨ g ∈ u.pomACCs

/-- What the update of a period draws on, for the type of `g`. -/
def recent (s : MonState) (g : GossipObj) : Option GossipObj :=
  match g.type with
  | .STH_FULL => s.sthFull.get g.getID
  | .REV_FULL => s.revFull.get g.getID
  | .CON_INIT => s.conflictDelta.get g.getID
  | .ACC_FULL => s.accusationDelta.get g.getID
  | _ => none

theorem recent_store (s : MonState) (g o : GossipObj) (h : keptType g.type = true) :
    recent (storeObject X s o) g = if o.getID = g.getID then some o else recent s g := by
  by_cases hid : o.getID = g.getID
  · rw [if_pos hid]
    have ht : o.type = g.type := congrArg GossipID.type hid
    unfold recent storeObject
    rw [ht]
    cases hg : g.type <;> simp_all [keptType, GoMap.get_set_self]
  · rw [if_neg hid]
    have hid' : g.getID ≠ o.getID := fun h => hid h.symm
    unfold recent storeObject
    cases ho : o.type <;> cases hg : g.type <;> simp_all [keptType, GoMap.get_set_ne]

/-- Between period ends what is held under an id changes only by a delivery under that id. -/
theorem recent_step {s s' : MonState} {e : MonEvent} (h : monStep X c s e = some s') (hf : ∀ clk, e ≠ .finish clk)
    (g : GossipObj) (hk : keptType g.type = true) :
    recent s' g = recent s g ∨ ∃ o, Delivers e o ∧ o.getID = g.getID ∧ recent s' g = some o := by
  have hre : ∀ q w t, recent (reTime s q w t) g = recent s g := by
    intro q w t; unfold recent reTime; cases g.type <;> rfl
  rcases mon_cases X c h with ⟨clk, he, rfl⟩ | ⟨q, w, t, rfl⟩ | ⟨q, w, o, hd, rfl⟩ | ⟨q, w, o, _, rfl⟩ | ⟨i, k, d, _, _, rfl⟩
  · exact absurd he (hf clk)
  · exact .inl (hre q w t)
  · have hdel : Delivers e o := by
      rcases hd with ⟨he, _⟩ | ⟨⟨i, he⟩, _⟩
      · exact .inl he
      · exact .inr ⟨i, he⟩
    rw [recent_store X _ g o hk]
    by_cases hid : o.getID = g.getID
    · rw [if_pos hid]; exact .inr ⟨o, hdel, hid, rfl⟩
    · rw [if_neg hid]; exact .inl (hre q w s.crvTimers)
  · left
    unfold recent send reTime
    cases g.type <;> rfl
  · left
    unfold fireCRV
    split
    · exact hre _ _ _
    · exact Eq.trans (by unfold recent; cases g.type <;> rfl) (hre s.queries s.waits (s.crvTimers.eraseIdx i))

theorem recent_run (evs : List MonEvent) {s s' : MonState} (h : monRun X c s evs = some s') (hf : noFinish evs = true)
    (g : GossipObj) (hk : keptType g.type = true) (hsame : ∀ e ∈ evs, ∀ o, Delivers e o → o.getID = g.getID → o = g)
    (h0 : recent s g = some g) : recent s' g = some g := by
  induction evs generalizing s with
  | nil => cases h; exact h0
  | cons e t ih =>
    simp only [monRun] at h
    cases he : monStep X c s e with
    | none => rw [he] at h; exact absurd h (by simp)
    | some s1 =>
      rw [he] at h
      refine ih h (by cases e <;> first | exact hf | cases hf) (fun e' h' => hsame e' (by simp [h'])) ?_
      rcases recent_step X c he (by rintro clk rfl; cases hf) g hk with h1 | ⟨o, hd, hid, h1⟩
      · rw [h1]; exact h0
      · rw [h1, hsame e (by simp) o hd hid]

/-- A period end drops what is not of its period and adds nothing. -/
theorem recent_finish (clk : Clock) (s : MonState) (g o : GossipObj) (h : recent (endPeriod X c clk s) g = some o) :
    recent s g = some o ∧ g.period = clk.period := by
  unfold recent at h ⊢
  cases hg : g.type <;> rw [hg] at h <;> simp only [] at h ⊢ <;> first | (cases h; done) | skip
  all_goals
    simp only [endPeriod, saveStorage, Mon.wipeStorage, cleanConflicting, get_filter_some, decide_eq_true_eq] at h
    first | exact ⟨h.1.1, h.2⟩ | exact ⟨h.1, h.2⟩

/-- The monitor holds `g` somewhere updates or proofs are kept. -/
def HoldsObj (s : MonState) (g : GossipObj) : Prop :=
  recent s g = some g ∨ s.conflictPom.get g.getID = some g ∨ s.accusationPom.get g.getID = some g

theorem holdsObj_step {s s' : MonState} {e : MonEvent} (h : monStep X c s e = some s') (g : GossipObj)
    (hk : keptType g.type = true) (hh : HoldsObj s' g) : HoldsObj s g ∨ Delivers e g := by
  have hp := poms_step X c h
  rcases hh with hh | hh | hh
  · by_cases hf : ∃ clk, e = .finish clk
    · obtain ⟨clk, rfl⟩ := hf
      cases h
      exact .inl (.inl (recent_finish X c clk s g g hh).1)
    · rcases recent_step X c h (fun clk he => hf ⟨clk, he⟩) g hk with h1 | ⟨o, hd, _, h1⟩
      · exact .inl (.inl (h1 ▸ hh))
      · rw [h1] at hh
        cases hh
        exact .inr hd
  · rcases hp.1 with h1 | ⟨o, hd, _, h1⟩
    · exact .inl (.inr (.inl (h1 ▸ hh)))
    · rw [h1] at hh
      rcases get_set_cases hh with ⟨_, rfl⟩ | h2
      · exact .inr hd
      · exact .inl (.inr (.inl h2))
  · rcases hp.2 with h1 | ⟨o, hd, _, h1⟩
    · exact .inl (.inr (.inr (h1 ▸ hh)))
    · rw [h1] at hh
      rcases get_set_cases hh with ⟨_, rfl⟩ | h2
      · exact .inr hd
      · exact .inl (.inr (.inr h2))

theorem not_delivered (evs : List MonEvent) {s s' : MonState} (h : monRun X c s evs = some s') (g : GossipObj)
    (hk : keptType g.type = true) (h0 : ¬ HoldsObj s g) (hd : ∀ e ∈ evs, ¬ Delivers e g) : ¬ HoldsObj s' g := by
  induction evs generalizing s with
  | nil => cases h; exact h0
  | cons e t ih =>
    simp only [monRun] at h
    cases he : monStep X c s e with
    | none => rw [he] at h; exact absurd h (by simp)
    | some s1 =>
      rw [he] at h
      refine ih h ?_ (fun e' h' => hd e' (by simp [h']))
      intro hh
      rcases holdsObj_step X c he g hk hh with h1 | h1
      · exact h0 h1
      · exact hd e (by simp) h1

theorem init_holds_nothing (g : GossipObj) : ¬ HoldsObj initMonitor g := by
  rintro (h | h | h)
  · unfold recent at h
    cases ht : g.type <;> rw [ht] at h <;> simp [initMonitor, GoMap.get_empty] at h
  · simp [initMonitor, GoMap.get_empty] at h
  · simp [initMonitor, GoMap.get_empty] at h

/-- A first delivery is kept for the next update. -/
theorem recent_gossip {s : MonState} (g : GossipObj) (hk : keptType g.type = true) (h0 : ¬ HoldsObj s g) :
    recent (handleGossip X c s (some g)) g = some g ∧
      (g.type = .CON_INIT → (handleGossip X c s (some g)).conflictPom.get g.getID = some g) ∧
      (g.type = .ACC_FULL → (handleGossip X c s (some g)).accusationPom.get g.getID = some g) := by
  have hst : storedType g.type = true := by simp [storedType, hk]
  have hne : g ≠ .zero := by
    rintro rfl
    simp [keptType, GossipObj.zero] at hk
  have key : handleGossip X c s (some g) = storeObject X s g := by
    obtain ⟨h1, h2 | h2⟩ := handleGossip_stored X c s g hst
    · exfalso
      rw [h2] at h1
      apply h0
      unfold Mon.getObject at h1
      have hT : g.getID.type = g.type := rfl
      have key : ∀ m : Option GossipObj, m.getD .zero = g → m = some g := by
        intro m hm
        cases m with
        | none => exact absurd hm.symm hne
        | some x => exact congrArg some hm
      rw [hT] at h1
      unfold HoldsObj recent
      cases ht : g.type <;> rw [ht] at h1 hk <;> simp only [] at h1 ⊢ <;> first | (cases hk; done) | skip
      · exact .inr (.inl (key _ h1))
      · exact .inl (key _ h1)
      · exact .inl (key _ h1)
      · exact .inr (.inr (key _ h1))
    · exact h2
  rw [key, recent_store X s g g hk, if_pos rfl]
  refine ⟨rfl, fun ht => ?_, fun ht => ?_⟩ <;> simp [storeObject, ht, GoMap.get_set_self]

/-- What an update lists is what the monitor held for it, of the period of the update. -/
theorem lists_iff (evs : List MonEvent) (s s' : MonState) (clk : Clock) (h : monRun X c initMonitor evs = some s)
    (hs : monStep X c s (.finish clk) = some s') :
    ∃ u, s'.files.get (periodIO c clk) = some u ∧ ∀ g, u.Lists g ↔ recent s g = some g ∧ g.period = clk.period ∧
      (g.type = .STH_FULL ∨ g.type = .REV_FULL → s.conflictPom.get ⟨go!"0", .CON_INIT, g.payload.p0⟩ = none) := by
  obtain ⟨u, hu, _, _, _, h1, h2, h3, h4⟩ := C43_update_exact X c evs s s' clk h hs
  have inv := storesInv_run X c (fun _ => True) (fun _ _ => trivial) evs (storesInv_init _) (fun _ _ => trivial) h
  refine ⟨u, hu, fun g => ?_⟩
  unfold ClientUpdate.Lists
  rw [h1, h2, h3, h4]
  constructor
  · rintro (⟨a, b, d⟩ | ⟨a, b, d⟩ | ⟨a, b⟩ | ⟨a, b⟩)
    · have ht := (inv.sth _ _ a).2.2
      exact ⟨by unfold recent; rw [ht]; exact a, b, fun _ => d⟩
    · have ht := (inv.rev _ _ a).2.2
      exact ⟨by unfold recent; rw [ht]; exact a, b, fun _ => d⟩
    · have ht := (inv.conD _ _ a).2.2
      exact ⟨by unfold recent; rw [ht]; exact a, b, fun h => by rcases h with h | h <;> rw [ht] at h <;> cases h⟩
    · have ht := (inv.accD _ _ a).2.2
      exact ⟨by unfold recent; rw [ht]; exact a, b, fun h => by rcases h with h | h <;> rw [ht] at h <;> cases h⟩
  · rintro ⟨a, b, d⟩
    unfold recent at a
    cases ht : g.type <;> rw [ht] at a <;> simp only [] at a <;> first | (cases a; done) | skip
    · exact .inr (.inr (.inl ⟨a, b⟩))
    · exact .inl ⟨a, b, d (.inl ht)⟩
    · exact .inr (.inl ⟨a, b, d (.inr ht)⟩)
    · exact .inr (.inr (.inr ⟨a, b⟩))

/-- C78, part: a proof of misbehaviour, tree head or revocation that is delivered before the end of the period it names is in
the update of that period, unless an object with the same id arrives in between or (tree heads and revocations) a conflict
proof filed under "0" is at hand. Missing for the full property: later deliveries, see the next theorem. -/
theorem C78_in_time_partial (old mid post : List MonEvent) (g : GossipObj) (clk : Clock) (s : MonState)
    (h : monRun X c initMonitor (old ++ .gossip (some g) :: (mid ++ .finish clk :: post)) = some s)
    (hk : keptType g.type = true) (hp : clk.period = g.period) (hf : noFinish mid = true)
    (hnew : ∀ e ∈ old, ¬ Delivers e g)
    (hsame : ∀ e ∈ mid, ∀ o, Delivers e o → o.getID = g.getID → o = g)
    (hcon : g.type = .STH_FULL ∨ g.type = .REV_FULL → ∀ e ∈ old ++ mid, ∀ o, Delivers e o → o.type = .CON_INIT →
      o.payload.p0 = g.payload.p0 → o.period ≠ go!"0") :
    ∃ u, Published X c (old ++ .gossip (some g) :: (mid ++ .finish clk :: post)) u ∧ u.period = g.period ∧ u.Lists g := by
  obtain ⟨s1, s2, h1, h2, h3⟩ := run_split X c h
  obtain ⟨s3, s4, h4, h5, _⟩ := run_split X c h3
  have hrun : monRun X c initMonitor (old ++ .gossip (some g) :: mid) = some s3 := by
    rw [monRun_append, h1]
    simp only [Option.bind_some, monRun, h2, h4]
  obtain ⟨u, hu, hl⟩ := lists_iff X c _ s3 s4 clk hrun h5
  obtain ⟨u', hu', hup, _⟩ := C43_update_exact X c _ s3 s4 clk hrun h5
  cases hu.symm.trans hu'
  refine ⟨u, ⟨old ++ .gossip (some g) :: mid, clk, post, s3, s4, by simp, hrun, h5, hu⟩, hup.trans hp, (hl g).2 ⟨?_, hp.symm, ?_⟩⟩
  · have h6 := (recent_gossip X c g hk (not_delivered X c old h1 g hk (init_holds_nothing g) hnew)).1
    cases h2
    exact recent_run X c mid h4 hf g hk hsame h6
  · intro ht
    have hcon := hcon ht
    have key : ∀ (es : List MonEvent) (a b : MonState), monRun X c a es = some b →
        (∀ e ∈ es, ∀ o, Delivers e o → o.type = .CON_INIT → o.payload.p0 = g.payload.p0 → o.period ≠ go!"0") →
        a.conflictPom.get ⟨go!"0", .CON_INIT, g.payload.p0⟩ = none → b.conflictPom.get ⟨go!"0", .CON_INIT, g.payload.p0⟩ = none := by
      intro es
      induction es with
      | nil => intro a b hab _ h0; cases hab; exact h0
      | cons e t ih =>
        intro a b hab hd h0
        simp only [monRun] at hab
        cases he : monStep X c a e with
        | none => rw [he] at hab; exact absurd hab (by simp)
        | some a1 =>
          rw [he] at hab
          refine ih a1 b hab (fun e' h' => hd e' (by simp [h'])) ?_
          rcases (poms_step X c he).1 with h1 | ⟨o, hde, hto, h1⟩
          · rw [h1]; exact h0
          · rw [h1, GoMap.get_set_ne _ _ ?_]
            · exact h0
            · intro hh
              exact hd e (by simp) o hde hto (congrArg GossipID.entity hh).symm (congrArg GossipID.period hh).symm
    refine key _ _ _ hrun ?_ (GoMap.get_empty _)
    intro e he o hd hto hpo
    simp only [List.mem_append, List.mem_cons] at he hcon
    rcases he with he | rfl | he
    · exact hcon e (.inl he) o hd hto hpo
    · rcases hd with hd | ⟨i, hd⟩
      · cases hd
        rcases ht with ht | ht <;> rw [ht] at hto <;> cases hto
      · cases hd
    · exact hcon e (.inr he) o hd hto hpo

/-- The proof storage for the type of `g`. -/
def pomOf (s : MonState) (g : GossipObj) : Option GossipObj :=
  if g.type = .CON_INIT then s.conflictPom.get g.getID else s.accusationPom.get g.getID

/-- The proof is on file but not among the recent ones. -/
def Buried (s : MonState) (g : GossipObj) : Prop := pomOf s g = some g ∧ recent s g = none

/-- Events that bring no object with the id of `g` other than `g` itself from the gossiper. -/
def OnlyAgain (evs : List MonEvent) (g : GossipObj) : Prop :=
  ∀ e ∈ evs, ∀ o, Delivers e o → o.getID = g.getID → e = .gossip (some g)

theorem pom_dup (s : MonState) (g : GossipObj) (ht : g.type = .CON_INIT ∨ g.type = .ACC_FULL) (h : pomOf s g = some g) :
    handleGossip X c s (some g) = s := by
  have hd : isDuplicate s g = true := by
    have hT : g.getID.type = g.type := rfl
    unfold pomOf at h
    unfold isDuplicate Mon.getObject
    rw [hT]
    rcases ht with ht | ht <;> simp_all
  simp [handleGossip, hd]

theorem pom_step {s s1 : MonState} {e : MonEvent} (he : monStep X c s e = some s1) (g : GossipObj)
    (hno : ∀ o, Delivers e o → o.getID ≠ g.getID) (h1 : pomOf s g = some g) : pomOf s1 g = some g := by
  have hp := poms_step X c he
  unfold pomOf at h1 ⊢
  split
  · rename_i hT
    rw [if_pos hT] at h1
    rcases hp.1 with h2 | ⟨o, hd, _, h2⟩
    · rw [h2]; exact h1
    · rw [h2, GoMap.get_set_ne _ _ fun hh => hno o hd hh.symm]; exact h1
  · rename_i hT
    rw [if_neg hT] at h1
    rcases hp.2 with h2 | ⟨o, hd, _, h2⟩
    · rw [h2]; exact h1
    · rw [h2, GoMap.get_set_ne _ _ fun hh => hno o hd hh.symm]; exact h1

theorem pom_run (evs : List MonEvent) {s s' : MonState} (h : monRun X c s evs = some s') (g : GossipObj)
    (ht : g.type = .CON_INIT ∨ g.type = .ACC_FULL) (ho : OnlyAgain evs g) (h0 : pomOf s g = some g) : pomOf s' g = some g := by
  induction evs generalizing s with
  | nil => cases h; exact h0
  | cons e t ih =>
    simp only [monRun] at h
    cases he : monStep X c s e with
    | none => rw [he] at h; exact absurd h (by simp)
    | some s1 =>
      rw [he] at h
      refine ih h (fun e' h' => ho e' (by simp [h'])) ?_
      by_cases heg : e = .gossip (some g)
      · subst heg
        simp only [monStep, Option.some.injEq] at he
        rw [pom_dup X c s g ht h0] at he
        exact he ▸ h0
      · exact pom_step X c he g (fun o hd hid => heg (ho e (by simp) o hd hid)) h0

theorem buried_run (evs : List MonEvent) {s s' : MonState} (h : monRun X c s evs = some s') (g : GossipObj)
    (ht : g.type = .CON_INIT ∨ g.type = .ACC_FULL) (ho : OnlyAgain evs g) (h0 : Buried s g) : Buried s' g := by
  have hk : keptType g.type = true := by rcases ht with ht | ht <;> simp [keptType, ht]
  induction evs generalizing s with
  | nil => cases h; exact h0
  | cons e t ih =>
    simp only [monRun] at h
    cases he : monStep X c s e with
    | none => rw [he] at h; exact absurd h (by simp)
    | some s1 =>
      rw [he] at h
      refine ih h (fun e' h' => ho e' (by simp [h'])) ?_
      by_cases heg : e = .gossip (some g)
      · subst heg
        simp only [monStep, Option.some.injEq] at he
        rw [pom_dup X c s g ht h0.1] at he
        exact he ▸ h0
      · have hno : ∀ o, Delivers e o → o.getID ≠ g.getID := fun o hd hid => heg (ho e (by simp) o hd hid)
        constructor
        · exact pom_step X c he g hno h0.1
        · by_cases hf : ∃ clk, e = .finish clk
          · obtain ⟨clk, rfl⟩ := hf
            cases he
            cases hr : recent (endPeriod X c clk s) g with
            | none => rfl
            | some o => exact absurd (h0.2.symm.trans (recent_finish X c clk s g o hr).1) (by simp)
          · rcases recent_step X c he (fun clk h => hf ⟨clk, h⟩) g hk with h1 | ⟨o, hd, hid, _⟩
            · rw [h1]; exact h0.2
            · exact absurd hid (hno o hd)

/-- C78 fails: a proof of misbehaviour that reaches the monitor after the last period end of the minute it names (the update is
written 20 seconds before the minute is over) is in no update ever written, even if the gossiper delivers it again: the next
period end drops it from the recent proofs, and from then on it counts as a duplicate. -/
theorem C78_violated_late_proofs (old mid post : List MonEvent) (g : GossipObj) (clk : Clock) (s : MonState)
    (h : monRun X c initMonitor (old ++ .gossip (some g) :: (mid ++ .finish clk :: post)) = some s)
    (ht : g.type = .CON_INIT ∨ g.type = .ACC_FULL) (hp : clk.period ≠ g.period) (hf : noFinish mid = true)
    (hnew : ∀ e ∈ old, ¬ Delivers e g) (ho : OnlyAgain (mid ++ post) g) (u : ClientUpdate)
    (hu : Published X c (old ++ .gossip (some g) :: (mid ++ .finish clk :: post)) u) : ¬ u.Lists g := by
  have hk : keptType g.type = true := by rcases ht with ht | ht <;> simp [keptType, ht]
  obtain ⟨a, clk', b, s1, s2, heq, h1, h2, h3⟩ := hu
  obtain ⟨u', hu', hl⟩ := lists_iff X c a s1 s2 clk' h1 h2
  cases h3.symm.trans hu'
  intro hlist
  obtain ⟨hr, hpc, _⟩ := (hl g).1 hlist
  have fin : ∀ d, a = old ++ .gossip (some g) :: (mid ++ .finish clk :: d) → (∀ e ∈ d, e ∈ post) → False := by
    intro d ha hd
    rw [ha] at h1
    obtain ⟨t1, t2, k1, k2, k3⟩ := run_split X c h1
    obtain ⟨t3, t4, k4, k5, k6⟩ := run_split X c k3
    have hg := recent_gossip X c g hk (not_delivered X c old k1 g hk (init_holds_nothing g) hnew)
    have hpom : pomOf t2 g = some g := by
      cases k2
      unfold pomOf
      split
      · rename_i hT; exact hg.2.1 hT
      · rename_i hT; exact hg.2.2 (ht.resolve_left hT)
    have hpom3 := pom_run X c mid k4 g ht (fun e he => ho e (by simp [he])) hpom
    have hb : Buried t4 g := by
      refine ⟨pom_step X c k5 g ?_ hpom3, ?_⟩
      · rintro o (hd | ⟨i, hd⟩) <;> cases hd
      · cases k5
        cases hr : recent (endPeriod X c clk t3) g with
        | none => rfl
        | some o => exact absurd (recent_finish X c clk t3 g o hr).2.symm hp
    have := buried_run X c d k6 g ht (fun e he => ho e (by simp [hd e he])) hb
    rw [this.2] at hr
    cases hr
  rcases List.append_eq_append_iff.1 heq with ⟨a', ha, hb⟩ | ⟨c', hc, hb⟩
  · cases a' with
    | nil => simp at hb
    | cons e a'' =>
      simp only [List.cons_append, List.cons.injEq] at hb
      obtain ⟨rfl, hb⟩ := hb
      rcases List.append_eq_append_iff.1 hb with ⟨d, hd, hb'⟩ | ⟨d, hd, hb'⟩
      · cases d with
        | nil =>
          simp only [List.nil_append, List.cons.injEq, MonEvent.finish.injEq] at hb'
          exact hp (hb'.1 ▸ hpc.symm)
        | cons e d' =>
          simp only [List.cons_append, List.cons.injEq] at hb'
          obtain ⟨rfl, hb'⟩ := hb'
          exact fin d' (by rw [ha, hd]) (fun e he => by rw [hb']; simp [he])
      · cases d with
        | nil =>
          simp only [List.nil_append, List.cons.injEq, MonEvent.finish.injEq] at hb'
          exact hp (hb'.1 ▸ hpc.symm)
        | cons e d' =>
          simp only [List.cons_append, List.cons.injEq] at hb'
          obtain ⟨rfl, hb'⟩ := hb'
          rw [hd, noFinish_append] at hf
          simp [noFinish] at hf
  · cases c' with
    | nil => simp at hb
    | cons e c'' =>
      refine not_delivered X c a h1 g hk (init_holds_nothing g) (fun e' he' => hnew e' ?_) (.inl hr)
      rw [hc]; simp [he']

namespace Ref

def clk06 : Clock := { clk with period := go!"06" }

/-- The update of minute 5 is written, then a conflict proof of minute 5 arrives; it is delivered again later and minute 5 of the
next hour ends. -/
def lateProof : List MonEvent :=
  [.finish clk, .gossip (some (conL1 (go!"05"))), .finish clk06, .gossip (some (conL1 (go!"05"))), .finish clk]

/-- C78: the hypotheses of `C78_violated_late_proofs`, and its outcome: the proof is on file, no update has it. -/
example : lateProof = [.finish clk] ++ .gossip (some (conL1 (go!"05"))) :: ([] ++ .finish clk06 ::
      [.gossip (some (conL1 (go!"05"))), .finish clk]) ∧
    (conL1 (go!"05")).type = .CON_INIT ∧ clk06.period ≠ (conL1 (go!"05")).period ∧
    OnlyAgain ([] ++ [.gossip (some (conL1 (go!"05"))), .finish clk]) (conL1 (go!"05")) ∧
    ((monRun xlib monConf initMonitor lateProof).map fun s => (s.conflictPom.has (conL1 (go!"05")).getID,
      s.files.values.map fun u => u.pomCONs.length)) = some (true, [0, 0]) := by
  refine ⟨rfl, rfl, by decide, ?_, by decide +kernel⟩
  intro e he o hd _
  simp only [List.nil_append, List.mem_cons, List.not_mem_nil, or_false] at he
  rcases he with rfl | rfl
  · rfl
  · rcases hd with hd | ⟨i, hd⟩ <;> cases hd

/-- C78: delivered before the end of minute 5, the proof is in the update. -/
example : ((monRun xlib monConf initMonitor [.gossip (some (conL1 (go!"05"))), .finish clk]).map fun s =>
    s.files.values.map fun u => u.pomCONs == [conL1 (go!"05")]) = some [true] := by decide +kernel

end Ref
end CTng
