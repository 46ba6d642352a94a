import Verif.Proofs.GossiperMain
import Verif.Spec.RefLib
/-
C11, C12, C13, C15, C16, C26, C35: properties of a gossiper under every schedule of its goroutines.
-/
set_option autoImplicit false

namespace CTng
variable {L : Lib}

/-! ### Specification -/

/-- The object `o` is found under the key `k` in the store for objects of type `t`. -/
inductive HeldAs (s : Storage) (k : GossipID) (o : GossipObj) : GType → Prop
  | sthInit : s.sthInit.get k = some o → HeldAs s k o .STH_INIT
  | revInit : s.revInit.get k = some o → HeldAs s k o .REV_INIT
  | accInit : s.accInit.get k = some o → HeldAs s k o .ACC_INIT
  | conInit : s.conInit.get k = some o → HeldAs s k o .CON_INIT
  | sthFull : s.sthFull.get k = some o → HeldAs s k o .STH_FULL
  | revFull : s.revFull.get k = some o → HeldAs s k o .REV_FULL
  | accFull : s.accFull.get k = some o → HeldAs s k o .ACC_FULL

/-- The list of fragments kept under the key `k` for type `t`. -/
inductive FragsAt (s : Storage) (k : GossipID) (l : List GossipObj) : GType → Prop
  | sth : s.sthFrag.get k = some l → FragsAt s k l .STH_FRAG
  | rev : s.revFrag.get k = some l → FragsAt s k l .REV_FRAG
  | acc : s.accFrag.get k = some l → FragsAt s k l .ACC_FRAG

theorem heldAs_iff {s : Storage} {k : GossipID} {o : GossipObj} {t : GType} :
    HeldAs s k o t ↔ (s.objs t).get k = some o := by
  constructor
  · rintro (h | h | h | h | h | h | h) <;> exact h
  · intro h
    cases t with
    | STH_INIT => exact .sthInit h
    | REV_INIT => exact .revInit h
    | ACC_INIT => exact .accInit h
    | CON_INIT => exact .conInit h
    | STH_FULL => exact .sthFull h
    | REV_FULL => exact .revFull h
    | ACC_FULL => exact .accFull h
    | _ => simp [Storage.objs] at h

theorem FragsAt.fragList {s : Storage} {k : GossipID} {l : List GossipObj} {t : GType} (h : FragsAt s k l t) :
    s.fragList t k = l := by
  cases h <;> rename_i h <;> simp [Storage.fragList, Storage.frags, h]

theorem CReach.main {cf : GConf L} {c : CState} (hc : CReach cf c) :
    ∃ h, c = stateOf cf h ∧ MainInv cf h c.g ∧ ∀ t ∈ c.threads, ∀ f ∈ t.frames, f.wt ∧ f.post cf h := by
  obtain ⟨h, rfl⟩ := hc
  have H := (mainInv cf).holds cf h
  exact ⟨h, rfl, H.1, H.2⟩

/-- Run goroutine `i` for `n` steps. -/
def runs (clk : Clock) (i n : Nat) : List (Clock × CEvent) := List.replicate n (clk, .run i)

/-! ### C11 -/

/-- C11. Whatever the schedule, every held INIT, CON and FULL object verifies. -/
theorem C11_held_objects_verify (cf : GConf L) (c : CState) (hc : CReach cf c) (k : GossipID) (o : GossipObj) (t : GType)
    (h : HeldAs c.g.storage k o t) : o.verify cf.crypto = .ok := by
  obtain ⟨_, _, H, _⟩ := hc.main
  exact (H.storage.objs t k o (heldAs_iff.1 h)).2.2

/-- C11. Every saved payload verifies. -/
theorem C11_saved_payloads_verify (cf : GConf L) (c : CState) (hc : CReach cf c) (k : GossipID) (o : GossipObj)
    (h : c.g.storage.revPayload.get k = some o) : o.verify cf.crypto = .ok := by
  obtain ⟨_, _, H, _⟩ := hc.main
  exact (H.storage.payload k o h).2.2

/-- Two conflicting STHs arrive at once; their handlers alternate. -/
def Ref.raceSchedule : List (Clock × CEvent) :=
  [(Ref.clk, .recv 10 Ref.sth), (Ref.clk, .recv 10 Ref.sth')] ++
    (List.replicate 30 [(Ref.clk, .run 0), (Ref.clk, .run 1)]).flatten

example : HeldAs (crun Ref.gconf CState.init Ref.raceSchedule).g.storage Ref.sth'.getID Ref.sth' .STH_INIT :=
  heldAs_iff.2 (by decide +kernel)

/-! ### C12 -/

/-- C12. A lookup of (period, type, entity) returns only objects with this period, type and entity. -/
theorem C12_filed_under_own_identity (cf : GConf L) (c : CState) (hc : CReach cf c) (k : GossipID) (o : GossipObj)
    (t : GType) (h : HeldAs c.g.storage k o t) :
    o.type = t ∧ k.type = t ∧ o.period = k.period ∧ o.payload.p0 = k.entity := by
  obtain ⟨_, _, H, _⟩ := hc.main
  obtain ⟨a, b, _⟩ := H.storage.objs t k o (heldAs_iff.1 h)
  subst a
  exact ⟨b, b, rfl, rfl⟩

/-- C12, for fragments. -/
theorem C12_fragments_filed_under_own_identity (cf : GConf L) (c : CState) (hc : CReach cf c) (k : GossipID)
    (l : List GossipObj) (t : GType) (h : FragsAt c.g.storage k l t) (o : GossipObj) (ho : o ∈ l) :
    o.type = t ∧ k.type = t ∧ o.period = k.period ∧ o.payload.p0 = k.entity := by
  obtain ⟨_, _, H, _⟩ := hc.main
  obtain ⟨a, b⟩ := H.storage.frags t k o (by rw [h.fragList]; exact ho)
  subst a
  exact ⟨b, b, rfl, rfl⟩

/-- C12, for saved payloads. -/
theorem C12_payloads_filed_under_own_identity (cf : GConf L) (c : CState) (hc : CReach cf c) (k : GossipID)
    (o : GossipObj) (h : c.g.storage.revPayload.get k = some o) :
    o.type = .REV_INIT ∧ k.type = .REV_INIT ∧ o.period = k.period ∧ o.payload.p0 = k.entity := by
  obtain ⟨_, _, H, _⟩ := hc.main
  obtain ⟨a, b, _⟩ := H.storage.payload k o h
  subst a
  exact ⟨b, b, rfl, rfl⟩

/-! ### C13 -/

/-- C13. Whatever the schedule, at most Threshold fragments are kept for one (period, type, entity). -/
theorem C13_fragments_bounded (cf : GConf L) (c : CState) (hc : CReach cf c) (k : GossipID) (l : List GossipObj)
    (t : GType) (h : FragsAt c.g.storage k l t) (hl : l ≠ []) : (l.length : Int) ≤ cf.crypto.threshold := by
  obtain ⟨_, _, H, _⟩ := hc.main
  rcases H.storage.bound t k with e | e
  · rw [h.fragList] at e; exact absurd e hl
  · rw [h.fragList] at e; exact e

/-- A fragment of `id` for the sample STH. -/
def Ref.frag (id : Str) : GossipObj :=
  { Ref.sth with type := .STH_FRAG, signer := id, sig := ⟨Ref.blsStr id (go!"L1rootA7"), []⟩, cryptoScheme := go!"bls" }

/-- Three fragments arrive at once; the threshold is 2. -/
def Ref.fragSchedule : List (Clock × CEvent) :=
  [(Ref.clk, .recv 10 (Ref.frag (go!"G1"))), (Ref.clk, .recv 10 (Ref.frag (go!"G2"))),
   (Ref.clk, .recv 10 (Ref.frag (go!"G3")))] ++
    (List.replicate 30 [(Ref.clk, .run 0), (Ref.clk, .run 1), (Ref.clk, .run 2)]).flatten

example : FragsAt (crun Ref.gconf CState.init Ref.fragSchedule).g.storage (Ref.frag (go!"G1")).getID
    [Ref.frag (go!"G1"), Ref.frag (go!"G2")] .STH_FRAG := .sth (by decide +kernel)

/-! ### C15 -/

theorem blacklist_cstep (cf : GConf L) (c : CState) (e : Clock × CEvent) (x : Str)
    (h : c.g.blacklist.has x = true) : (cstep cf c e).g.blacklist.has x = true := by
  obtain ⟨clk, ev⟩ := e
  unfold cstep
  split
  · exact h
  · cases ev with
    | fire i => simp only; split <;> exact h
    | run i =>
      simp only
      split
      · exact h
      · rename_i t _
        simp only [stepThread]
        split
        · exact h
        · rename_i f fs _
          have key : (stepFrame cf clk c.g f).1.blacklist.has x = true := by
            rcases stepFrame_blacklist cf clk c.g f with h1 | ⟨g, _, _, h1⟩
            · rw [h1]; exact h
            · rw [h1]
              unfold addBlacklist
              split
              · exact h
              · simp only [GoMap.has_set, h, Bool.or_true]
          rcases hst : stepFrame cf clk c.g f with ⟨s', new⟩
          rw [hst] at key
          cases new with
          | some new => exact key
          | none => simp only; split <;> exact key
    | _ => exact h

/-- C15. No schedule of messages, timers and wipes removes an entity from the blacklist. -/
theorem C15_blacklist_permanent (cf : GConf L) (c : CState) (es : List (Clock × CEvent)) (x : Str)
    (h : c.g.blacklist.has x = true) : (crun cf c es).g.blacklist.has x = true :=
  crun_induct cf (P := fun c => c.g.blacklist.has x = true) (fun c e hc => blacklist_cstep cf c e x hc) h es

/-- L1 equivocates, is blacklisted, and stays so after a wipe. -/
def Ref.equivocation : List (Clock × CEvent) :=
  [(Ref.clk, .recv 10 Ref.sth)] ++ runs Ref.clk 0 20 ++ [(Ref.clk, .recv 10 Ref.sth')] ++ runs Ref.clk 1 30

example : (crun Ref.gconf CState.init Ref.equivocation).g.blacklist.has (go!"L1") = true ∧
    (crun Ref.gconf (crun Ref.gconf CState.init Ref.equivocation)
      ((Ref.clk, .periodic) :: runs Ref.clk 2 2)).g.blacklist.has (go!"L1") = true := by
  have h : (crun Ref.gconf CState.init Ref.equivocation).g.blacklist.has (go!"L1") = true := by decide +kernel
  exact ⟨h, C15_blacklist_permanent _ _ _ _ h⟩

/-! ### C16 -/

/-- During the history the gossiper held `o` in the store for its type, under its identity. -/
def HeldDuring (cf : GConf L) (h : List (Clock × CEvent)) (o : GossipObj) : Prop :=
  ∃ n, HeldAs (crun cf CState.init (h.take n)).g.storage o.getID o o.type

theorem heldDuring_of_wasStored {cf : GConf L} {h : History} {o : GossipObj} (w : WasStored cf h o) :
    HeldDuring cf h o := by
  obtain ⟨h1, h2, rfl, w⟩ := w
  refine ⟨h1.length, heldAs_iff.2 ?_⟩
  rw [List.take_left']
  · exact w
  · rfl

/-- C16. Whoever is blacklisted is named by a verifying conflict proof or full accusation that the gossiper stored. -/
theorem C16_blacklist_needs_evidence (cf : GConf L) (h : List (Clock × CEvent)) (x : Str)
    (hx : (crun cf CState.init h).g.blacklist.has x = true) :
    ∃ o, (o.type = .CON_INIT ∨ o.type = .ACC_FULL) ∧ o.payload.p0 = x ∧ o.verify cf.crypto = .ok ∧
      HeldDuring cf h o := by
  have H := (mainInv cf).holds cf h
  obtain ⟨o, a, b, c, d⟩ := H.1.blacklist x hx
  exact ⟨o, a, b, c, heldDuring_of_wasStored d⟩

/-! ### C26 -/

/-- C26. Whatever the schedule, each fragment a gossiper signs is its signature over the payload of an INIT object that
verified and that it stored. -/
theorem C26_signs_only_verified_and_stored (cf : GConf L) (h : List (Clock × CEvent)) (f : GossipObj)
    (hf : .signed f ∈ (crun cf CState.init h).g.out) :
    ∃ o : GossipObj, (o.type = .STH_INIT ∨ o.type = .REV_INIT ∨ o.type = .ACC_INIT) ∧ o.verify cf.crypto = .ok ∧
      HeldDuring cf h o ∧ f.payload = o.payload ∧ f.period = o.period ∧ f.signer = cf.crypto.selfID ∧
      some f.sig.s0 = (cf.crypto.thresholdSign (o.payload.p0 ++ o.payload.p1 ++ o.payload.p2)).1.toStr := by
  have H := (mainInv cf).holds cf h
  obtain ⟨o, a, b, c, d⟩ := H.1.signed f hf
  refine ⟨o, ?_, c, heldDuring_of_wasStored d, ?_⟩
  · cases ht : o.type <;> simp_all [GType.isInit]
  · unfold generateFRAG at b
    split at b
    · cases b
    · rename_i str hstr
      cases b
      exact ⟨rfl, rfl, rfl, hstr.symm⟩

/-- The gossiper in the example signs after its timer for the STH fires. -/
example : (Out.signed { Ref.frag (go!"G1") with sig := ⟨Ref.blsStr (go!"G1") (go!"L1rootA7"), []⟩ }) ∈
    (crun Ref.gconf CState.init ([(Ref.clk, .recv 10 Ref.sth)] ++ runs Ref.clk 0 20 ++ [(Ref.clk, .fire 0)] ++
      runs Ref.clk 1 5)).g.out := by
  decide +kernel

/-! ### C35 -/

/-- C35. In any state with any other goroutines pending, an arriving request whose handler is not interrupted has exactly
the effect of the sequential handler; the other goroutines are untouched. -/
theorem C35_uninterrupted_handler_is_sequential (cf : GConf L) (clk : Clock) (c : CState) (hcr : c.g.crashed = false)
    (n : Int) (o : GossipObj) :
    ∃ es, (∀ e ∈ es, e = (clk, .run c.threads.length)) ∧
      crun cf c ((clk, .recv n o) :: es) =
        ⟨(gossipObjectHandler cf clk n c.g o).1, c.threads ++ [⟨[], false⟩]⟩ := by
  have hsim := sim_recv cf clk n o c.g []
  obtain ⟨es, h1, h2⟩ := crun_solo cf clk hsim ⟨c.g, c.threads ++ [⟨[.recv n o], false⟩]⟩ c.threads.length false rfl rfl
    hcr (by simp)
  refine ⟨es, h1, ?_⟩
  have e1 : crun cf c ((clk, .recv n o) :: es) = crun cf (cstep cf c (clk, .recv n o)) es := rfl
  rw [e1]
  have e2 : cstep cf c (clk, .recv n o) = ⟨c.g, c.threads ++ [⟨[.recv n o], false⟩]⟩ := by
    simp [cstep, hcr]
  rw [e2, h2]
  rcases hr : gossipObjectHandler cf clk n c.g o with ⟨s', b⟩
  cases b <;> simp [finish, settle]

/-- C35, for timers. A panic on a timer goroutine ends the process. -/
theorem C35_uninterrupted_timer_is_sequential (cf : GConf L) (clk : Clock) (c : CState) (hcr : c.g.crashed = false)
    (i : Nat) :
    ∃ es, (∀ e ∈ es, e = (clk, .run c.threads.length)) ∧
      (crun cf c ((clk, .fire i) :: es)).g = gstep cf c.g (clk, .fire i) := by
  cases hi : c.g.timers[i]? with
  | none =>
    refine ⟨[], by simp, ?_⟩
    simp [crun, cstep, gstep, hcr, hi]
  | some o =>
    have hsim := sim_fire cf clk o { c.g with timers := c.g.timers.eraseIdx i } []
    obtain ⟨es, h1, h2⟩ := crun_solo cf clk hsim
      ⟨{ c.g with timers := c.g.timers.eraseIdx i }, c.threads ++ [⟨[.signBlk o], true⟩]⟩ c.threads.length true rfl rfl
      hcr (by simp)
    refine ⟨es, h1, ?_⟩
    have e1 : crun cf c ((clk, .fire i) :: es) = crun cf (cstep cf c (clk, .fire i)) es := rfl
    rw [e1]
    have e2 : cstep cf c (clk, .fire i) =
        ⟨{ c.g with timers := c.g.timers.eraseIdx i }, c.threads ++ [⟨[.signBlk o], true⟩]⟩ := by
      simp [cstep, hcr, hi]
    rw [e2, h2]
    rcases hr : timerFire cf clk { c.g with timers := c.g.timers.eraseIdx i } o with ⟨s', b⟩
    dsimp only at hr
    unfold gstep
    rw [if_neg (by simp [hcr])]
    simp only [hi, hr]
    cases b <;> rfl

/-- C35. Hence every state the sequential machine reaches is reached by some schedule, and what is proved for all
schedules holds for sequential histories. -/
theorem C35_sequential_histories_are_schedules (cf : GConf L) (s : GState) (h : GReach cf s) :
    ∃ es, (crun cf CState.init es).g = s ∧ ∀ t ∈ (crun cf CState.init es).threads, t.frames = [] := by
  obtain ⟨c, ⟨es, rfl⟩, hg, hi⟩ := h.toConc
  exact ⟨es, hg, hi⟩

example : (crun Ref.gconf CState.init ((Ref.clk, .recv 10 Ref.sth) :: runs Ref.clk 0 20)).g =
    (gossipObjectHandler Ref.gconf Ref.clk 10 GState.init Ref.sth).1 := by decide +kernel

end CTng
