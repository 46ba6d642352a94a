import Verif.Model.MonConc
import Verif.Props.MonitorUpdates
/- A monitor in single steps: C138 (updates), C139 (revocation vectors), C140 (accusations), and C41 under every schedule. -/
set_option autoImplicit false

namespace CTng
open Mon
variable {L : Lib} (X : XLib) (c : MonConf L)

/-! ### Runs -/

theorem monCRun_append (x : MonC) (h h' : List MonCEvent) : monCRun X c x (h ++ h') = monCRun X c (monCRun X c x h) h' :=
  List.foldl_append

theorem monCRun_cons (x : MonC) (e : MonCEvent) (h : List MonCEvent) :
    monCRun X c x (e :: h) = monCRun X c (monCStep X c x e) h := rfl

theorem monCStep_dead {x : MonC} (hd : x.dead = true) (e : MonCEvent) : monCStep X c x e = x := by
  unfold monCStep; rw [if_pos hd]

theorem monCStep_run {x : MonC} (hd : x.dead = false) {i : Nat} {G : MonG} (hi : x.gs[i]? = some G) {clk : Clock} {m' : MonState}
    {G' : MonG} (h : gStep X c clk x.m G = some (m', G')) : monCStep X c x (.run i clk) = ⟨m', x.gs.set i G', false⟩ := by
  unfold monCStep
  rw [if_neg (by rw [hd]; decide)]
  simp only [hi, h, hd]

theorem mon_set_get {G : MonG} {l : List MonG} {k : Nat} {G0 : MonG} (hk : l[k]? = some G0) : (l.set k G)[k]? = some G := by
  rw [List.getElem?_set_self (List.getElem?_eq_some_iff.1 hk).1]

/-! ### What one step changes -/

/-- The object a goroutine works on. -/
inductive Carried : MonG → GossipObj → Prop
  | check (g : GossipObj) : Carried (.check g) g
  | put (g : GossipObj) : Carried (.put g) g
  | putNew (g : GossipObj) : Carried (.putNew g) g
  | answered (u : Str) (k : EntityKind) (g : GossipObj) : Carried (.answered u k (.obj g)) g

/-- What a step of a goroutine can change. -/
structure GEff (clk : Clock) (G G' : MonG) (s s' : MonState) : Prop where
  sth : s'.sthFull = s.sthFull ∨ (∃ o, G = .put o ∧ o.type = .STH_FULL ∧ s'.sthFull = s.sthFull.set o.getID o) ∨
    s'.sthFull = s.sthFull.filterKV (cleanKeep s) ∨ s'.sthFull = s.sthFull.filterKV (wipeKeep clk)
  rev : s'.revFull = s.revFull ∨ (∃ o, G = .put o ∧ o.type = .REV_FULL ∧ s'.revFull = s.revFull.set o.getID o) ∨
    s'.revFull = s.revFull.filterKV (cleanKeep s) ∨ s'.revFull = s.revFull.filterKV (wipeKeep clk)
  conD : s'.conflictDelta = s.conflictDelta ∨
    (∃ o, G = .putNew o ∧ o.type = .CON_INIT ∧ s'.conflictDelta = s.conflictDelta.set o.getID o) ∨
    s'.conflictDelta = s.conflictDelta.filterKV (wipeKeep clk)
  accD : s'.accusationDelta = s.accusationDelta ∨
    (∃ o, G = .putNew o ∧ o.type = .ACC_FULL ∧ s'.accusationDelta = s.accusationDelta.set o.getID o) ∨
    s'.accusationDelta = s.accusationDelta.filterKV (wipeKeep clk)
  con : s'.conflictPom = s.conflictPom ∨
    ∃ o, G = .put o ∧ o.type = .CON_INIT ∧ s'.conflictPom = s.conflictPom.set o.getID o
  acc : s'.accusationPom = s.accusationPom ∨
    ∃ o, G = .put o ∧ o.type = .ACC_FULL ∧ s'.accusationPom = s.accusationPom.set o.getID o
  crv : s'.crv = s.crv ∨ ∃ key d, G = .crvNew key d ∧ s'.crv = s.crv.set key d
  sent : s'.sent = s.sent ∨ (∃ o, Carried G o ∧ (o.type = .STH_INIT ∨ o.type = .REV_INIT) ∧ s'.sent = s.sent ++ [o]) ∨
    ∃ e, G = .accusing e ∧ s'.sent = s.sent ++ [accusation c clk e]
  files : s'.files = s.files ∨ ∃ u, G = .ending (.save u) ∧ s'.files = s.files.set (periodIO c clk) u
  carried : ∀ o, Carried G' o → Carried G o

theorem gEff_refl (clk : Clock) (G G' : MonG) (s : MonState) (h : ∀ o, Carried G' o → Carried G o) : GEff c clk G G' s s :=
  ⟨.inl rfl, .inl rfl, .inl rfl, .inl rfl, .inl rfl, .inl rfl, .inl rfl, .inl rfl, .inl rfl, h⟩

theorem processThen_state (s : MonState) (g : GossipObj) : (processThen c s g).1 = s ∨
    ((g.type = .STH_INIT ∨ g.type = .REV_INIT) ∧ (processThen c s g).1 = send s g) := by
  by_cases h1 : g.type = .STH_INIT ∧ isLogger c g.signer
  · exact .inr ⟨.inl h1.1, by simp [processThen, h1]⟩
  · by_cases h2 : g.type = .REV_INIT ∧ isAuthority c g.signer
    · exact .inr ⟨.inr h2.1, by simp [processThen, h2]⟩
    · exact .inl (by simp only [processThen]; rw [if_neg h1, if_neg h2])

theorem processThen_eff (clk : Clock) (G : MonG) (s : MonState) (g : GossipObj) (hG : Carried G g) :
    GEff c clk G (processThen c s g).2 s (processThen c s g).1 := by
  have hc : ∀ o, Carried (processThen c s g).2 o → Carried G o := by
    intro o ho
    simp only [processThen] at ho
    split at ho <;> cases ho
    exact hG
  rcases processThen_state c s g with h | ⟨ht, h⟩
  · rw [h]; exact gEff_refl c clk _ _ _ hc
  · rw [h]
    exact ⟨.inl rfl, .inl rfl, .inl rfl, .inl rfl, .inl rfl, .inl rfl, .inl rfl, .inr (.inl ⟨g, hG, ht, rfl⟩), .inl rfl, hc⟩

theorem gStep_eff {clk : Clock} {s s' : MonState} {G G' : MonG} (h : gStep X c clk s G = some (s', G')) :
    GEff c clk G G' s s' := by
  cases G with
  | check g =>
    simp only [gStep] at h
    split at h
    · cases h; exact gEff_refl c clk _ _ _ fun o ho => by cases ho
    · split at h
      · cases h; exact gEff_refl c clk _ _ _ fun o ho => by cases ho; exact .check g
      · cases h; exact gEff_refl c clk _ _ _ fun o ho => by cases ho; exact .check g
      · cases h; exact processThen_eff c clk _ _ _ (.check g)
  | put g =>
    simp only [gStep, Option.some.injEq, Prod.mk.injEq] at h
    obtain ⟨rfl, rfl⟩ := h
    have hc : ∀ o, Carried (if g.type = .CON_INIT ∨ g.type = .ACC_FULL then .putNew g else .done) o → Carried (.put g) o := by
      intro o ho
      split at ho <;> cases ho
      exact .put g
    cases ht : g.type <;> simp only [putObject, storeObject, ht] <;> rw [ht] at hc <;>
      refine ⟨?_, ?_, ?_, ?_, ?_, ?_, ?_, ?_, ?_, hc⟩ <;>
      first | exact .inl rfl | exact .inr (.inl ⟨g, rfl, ht, rfl⟩) | exact .inr ⟨g, rfl, ht, rfl⟩
  | putNew g =>
    simp only [gStep, Option.some.injEq, Prod.mk.injEq] at h
    obtain ⟨rfl, rfl⟩ := h
    cases ht : g.type <;> simp only [putNewObject, ht] <;>
      refine ⟨?_, ?_, ?_, ?_, ?_, ?_, ?_, ?_, ?_, fun o ho => by cases ho⟩ <;>
      first | exact .inl rfl | exact .inr (.inl ⟨g, rfl, ht, rfl⟩)
  | answered u k f =>
    have wait : GEff c clk (.answered u k f) .done s { s with waits := s.waits ++ [(u, k)] } :=
      ⟨.inl rfl, .inl rfl, .inl rfl, .inl rfl, .inl rfl, .inl rfl, .inl rfl, .inl rfl, .inl rfl, fun o ho => by cases ho⟩
    simp only [gStep] at h
    cases f with
    | failed => cases h; exact wait
    | obj g =>
      simp only at h
      split at h
      · cases h
      · cases h; exact wait
      · split at h
        · cases h; exact processThen_eff c clk _ _ _ (.answered u _ g)
        · split at h
          · cases h
          · cases h; exact wait
          · cases h; exact processThen_eff c clk _ _ _ (.answered u _ g)
  | waiting e k =>
    simp only [gStep, Option.some.injEq, Prod.mk.injEq] at h
    obtain ⟨rfl, rfl⟩ := h
    refine gEff_refl c clk _ _ _ fun o ho => ?_
    cases k <;> simp only at ho <;> split at ho <;> cases ho
  | silent e =>
    simp only [gStep, Option.some.injEq, Prod.mk.injEq] at h
    obtain ⟨rfl, rfl⟩ := h
    refine gEff_refl c clk _ _ _ fun o ho => ?_
    split at ho <;> cases ho
  | accuse e =>
    simp only [gStep, Option.some.injEq, Prod.mk.injEq] at h
    obtain ⟨rfl, rfl⟩ := h
    refine gEff_refl c clk _ _ _ fun o ho => ?_
    split at ho <;> cases ho
  | accusing e =>
    simp only [gStep, Option.some.injEq, Prod.mk.injEq] at h
    obtain ⟨rfl, rfl⟩ := h
    exact ⟨.inl rfl, .inl rfl, .inl rfl, .inl rfl, .inl rfl, .inl rfl, .inl rfl, .inr (.inr ⟨e, rfl, rfl⟩), .inl rfl,
      fun o ho => by cases ho⟩
  | crvLook key d =>
    simp only [gStep, Option.some.injEq, Prod.mk.injEq] at h
    obtain ⟨rfl, rfl⟩ := h
    refine gEff_refl c clk _ _ _ fun o ho => ?_
    split at ho <;> cases ho
  | crvNew key d =>
    simp only [gStep, Option.some.injEq, Prod.mk.injEq] at h
    obtain ⟨rfl, rfl⟩ := h
    exact ⟨.inl rfl, .inl rfl, .inl rfl, .inl rfl, .inl rfl, .inl rfl, .inr ⟨key, d, rfl, rfl⟩, .inl rfl, .inl rfl,
      fun o ho => by cases ho⟩
  | ending a =>
    simp only [gStep, Option.some.injEq] at h
    cases a <;> simp only [endStep, Prod.mk.injEq] at h <;> obtain ⟨rfl, rfl⟩ := h <;>
      refine ⟨?_, ?_, ?_, ?_, ?_, ?_, ?_, ?_, ?_, fun o ho => by cases ho⟩ <;>
      first | exact .inl rfl | exact .inr (.inr (.inl rfl)) | exact .inr (.inr (.inr rfl)) | exact .inr (.inr rfl) | exact .inr ⟨_, rfl, rfl⟩
  | done =>
    simp only [gStep, Option.some.injEq, Prod.mk.injEq] at h
    obtain ⟨rfl, rfl⟩ := h
    exact gEff_refl c clk _ _ _ fun o ho => by cases ho

/-- What one event can change: a step of a goroutine, or a goroutine more. -/
theorem monCStep_cases (x : MonC) (e : MonCEvent) :
    (∃ i clk G G' m', e = .run i clk ∧ x.dead = false ∧ x.gs[i]? = some G ∧ gStep X c clk x.m G = some (m', G') ∧
      monCStep X c x e = ⟨m', x.gs.set i G', false⟩) ∨
    ((monCStep X c x e).m.sthFull = x.m.sthFull ∧ (monCStep X c x e).m.revFull = x.m.revFull ∧
      (monCStep X c x e).m.conflictDelta = x.m.conflictDelta ∧ (monCStep X c x e).m.accusationDelta = x.m.accusationDelta ∧
      (monCStep X c x e).m.conflictPom = x.m.conflictPom ∧ (monCStep X c x e).m.accusationPom = x.m.accusationPom ∧
      (monCStep X c x e).m.crv = x.m.crv ∧ (monCStep X c x e).m.sent = x.m.sent ∧ (monCStep X c x e).m.files = x.m.files ∧
      (monCStep X c x e).m.temp = x.m.temp ∧
      ((monCStep X c x e).gs = x.gs ∨ ∃ G, (monCStep X c x e).gs = x.gs ++ [G] ∧
        ((∃ b, e = .gossip b ∧ G = .check (b.getD .zero)) ∨ (∃ i u k f, e = .answer i f ∧ G = .answered u k f) ∨
         (∃ i u k, e = .wait i ∧ G = .waiting u k) ∨ (∃ i key d, e = .crv i ∧ G = .crvLook key d) ∨
         (e = .finish ∧ G = .ending .cleanSth)))) := by
  by_cases hd : x.dead = true
  · right; rw [monCStep_dead X c hd]; exact ⟨rfl, rfl, rfl, rfl, rfl, rfl, rfl, rfl, rfl, rfl, .inl rfl⟩
  · have hd' : x.dead = false := by simpa using hd
    unfold monCStep
    rw [if_neg hd]
    cases e with
    | gossip b => right; exact ⟨rfl, rfl, rfl, rfl, rfl, rfl, rfl, rfl, rfl, rfl, .inr ⟨_, rfl, .inl ⟨b, rfl, rfl⟩⟩⟩
    | query clk => right; exact ⟨rfl, rfl, rfl, rfl, rfl, rfl, rfl, rfl, rfl, rfl, .inl rfl⟩
    | answer i f =>
      right
      simp only
      split
      · exact ⟨rfl, rfl, rfl, rfl, rfl, rfl, rfl, rfl, rfl, rfl, .inl rfl⟩
      · exact ⟨rfl, rfl, rfl, rfl, rfl, rfl, rfl, rfl, rfl, rfl, .inr ⟨_, rfl, .inr (.inl ⟨i, _, _, f, rfl, rfl⟩)⟩⟩
    | wait i =>
      right
      simp only
      split
      · exact ⟨rfl, rfl, rfl, rfl, rfl, rfl, rfl, rfl, rfl, rfl, .inl rfl⟩
      · exact ⟨rfl, rfl, rfl, rfl, rfl, rfl, rfl, rfl, rfl, rfl, .inr ⟨_, rfl, .inr (.inr (.inl ⟨i, _, _, rfl, rfl⟩))⟩⟩
    | crv i =>
      right
      simp only
      split
      · exact ⟨rfl, rfl, rfl, rfl, rfl, rfl, rfl, rfl, rfl, rfl, .inl rfl⟩
      · exact ⟨rfl, rfl, rfl, rfl, rfl, rfl, rfl, rfl, rfl, rfl, .inr ⟨_, rfl, .inr (.inr (.inr (.inl ⟨i, _, _, rfl, rfl⟩)))⟩⟩
    | finish => right; exact ⟨rfl, rfl, rfl, rfl, rfl, rfl, rfl, rfl, rfl, rfl, .inr ⟨_, rfl, .inr (.inr (.inr (.inr ⟨rfl, rfl⟩)))⟩⟩
    | run i clk =>
      cases hG : x.gs[i]? with
      | none => right; simp [hG]
      | some G =>
        cases hs : gStep X c clk x.m G with
        | none => right; simp [hG, hs]
        | some p =>
          obtain ⟨m', G'⟩ := p
          left
          simp only [hG, hs, hd']
          exact ⟨i, clk, G, G', m', rfl, trivial, hG, hs, rfl⟩

/-- An event that brings an object to the monitor. -/
def BringsC (e : MonCEvent) (g : GossipObj) : Prop := (∃ b, e = .gossip b ∧ b.getD .zero = g) ∨ ∃ i, e = .answer i (.obj g)

/-- The objects goroutines work on are those of before or the one just brought. -/
theorem monCStep_carried (x : MonC) (e : MonCEvent) {G : MonG} (hG : G ∈ (monCStep X c x e).gs) {o : GossipObj} (ho : Carried G o) :
    (∃ G0 ∈ x.gs, Carried G0 o) ∨ BringsC e o := by
  rcases monCStep_cases X c x e with ⟨i, clk, G1, G', m', rfl, _, hi, hs, h⟩ | ⟨_, _, _, _, _, _, _, _, _, _, h⟩
  · rw [h] at hG
    rcases List.mem_or_eq_of_mem_set hG with hG | rfl
    · exact .inl ⟨G, hG, ho⟩
    · exact .inl ⟨G1, List.mem_of_getElem? hi, (gStep_eff X c hs).carried o ho⟩
  · rcases h with h | ⟨G1, h, hc⟩
    · rw [h] at hG; exact .inl ⟨G, hG, ho⟩
    · rw [h, List.mem_append, List.mem_singleton] at hG
      rcases hG with hG | rfl
      · exact .inl ⟨G, hG, ho⟩
      · rcases hc with ⟨b, rfl, rfl⟩ | ⟨i, u, k, f, rfl, rfl⟩ | ⟨i, u, k, rfl, rfl⟩ | ⟨i, u, k, rfl, rfl⟩ | ⟨rfl, rfl⟩
        · cases ho; exact .inr (.inl ⟨b, rfl, rfl⟩)
        · cases ho; exact .inr (.inr ⟨i, rfl⟩)
        · cases ho
        · cases ho
        · cases ho

/-! ### C41: proofs stay, whatever the schedule -/

/-- C41, for handlers, queries, timers and ends of periods in any order of their single steps: once the monitor holds a proof
under an id it holds one under that id for ever. Missing for the full property: the very same proof, see
`C41_violated_replaced`. -/
theorem C41_every_schedule_partial (x : MonC) (h : List MonCEvent) (id : GossipID) :
    (x.m.conflictPom.has id = true → (monCRun X c x h).m.conflictPom.has id = true) ∧
    (x.m.accusationPom.has id = true → (monCRun X c x h).m.accusationPom.has id = true) := by
  induction h generalizing x with
  | nil => exact ⟨fun h => h, fun h => h⟩
  | cons e t ih =>
    rw [monCRun_cons]
    obtain ⟨i1, i2⟩ := ih (monCStep X c x e)
    have key : (x.m.conflictPom.has id = true → (monCStep X c x e).m.conflictPom.has id = true) ∧
        (x.m.accusationPom.has id = true → (monCStep X c x e).m.accusationPom.has id = true) := by
      rcases monCStep_cases X c x e with ⟨i, clk, G, G', m', rfl, _, hi, hs, h⟩ | ⟨_, _, _, _, h1, h2, _⟩
      · rw [h]
        have hE := gStep_eff X c hs
        constructor
        · intro h0
          rcases hE.con with h1 | ⟨o, _, _, h1⟩
          · simp only [h1, h0]
          · simp only [h1, GoMap.has_set, h0, Bool.or_true]
        · intro h0
          rcases hE.acc with h1 | ⟨o, _, _, h1⟩
          · simp only [h1, h0]
          · simp only [h1, GoMap.has_set, h0, Bool.or_true]
      · rw [h1, h2]; exact ⟨fun h => h, fun h => h⟩
    exact ⟨fun h0 => i1 (key.1 h0), fun h0 => i2 (key.2 h0)⟩

/-! ### C138: updates -/

/-- The four lists of an update with the type of their objects. -/
inductive Slot where
  | sth | rev | con | acc
  deriving DecidableEq

def Slot.type : Slot → GType
  | .sth => .STH_FULL | .rev => .REV_FULL | .con => .CON_INIT | .acc => .ACC_FULL

def Slot.list : Slot → ClientUpdate → List GossipObj
  | .sth => ClientUpdate.sths | .rev => ClientUpdate.revs | .con => ClientUpdate.pomCONs | .acc => ClientUpdate.pomACCs

/-- What the monitor has for the list. -/
def Slot.store : Slot → MonState → GStore
  | .sth => MonState.sthFull | .rev => MonState.revFull | .con => MonState.conflictDelta | .acc => MonState.accusationDelta

theorem slot_eff (sl : Slot) {clk : Clock} {G G' : MonG} {s s' : MonState} (h : GEff c clk G G' s s') :
    sl.store s' = sl.store s ∨ (∃ o, Carried G o ∧ o.type = sl.type ∧ sl.store s' = (sl.store s).set o.getID o) ∨
    ((sl = .sth ∨ sl = .rev) ∧ sl.store s' = (sl.store s).filterKV (cleanKeep s)) ∨
    sl.store s' = (sl.store s).filterKV (wipeKeep clk) := by
  cases sl with
  | sth =>
    rcases h.sth with h | ⟨o, rfl, h1, h⟩ | h | h
    · exact .inl h
    · exact .inr (.inl ⟨o, .put o, h1, h⟩)
    · exact .inr (.inr (.inl ⟨.inl rfl, h⟩))
    · exact .inr (.inr (.inr h))
  | rev =>
    rcases h.rev with h | ⟨o, rfl, h1, h⟩ | h | h
    · exact .inl h
    · exact .inr (.inl ⟨o, .put o, h1, h⟩)
    · exact .inr (.inr (.inl ⟨.inr rfl, h⟩))
    · exact .inr (.inr (.inr h))
  | con =>
    rcases h.conD with h | ⟨o, rfl, h1, h⟩ | h
    · exact .inl h
    · exact .inr (.inl ⟨o, .putNew o, h1, h⟩)
    · exact .inr (.inr (.inr h))
  | acc =>
    rcases h.accD with h | ⟨o, rfl, h1, h⟩ | h
    · exact .inl h
    · exact .inr (.inl ⟨o, .putNew o, h1, h⟩)
    · exact .inr (.inr (.inr h))

theorem slot_same {x : MonC} {e : MonCEvent} (sl : Slot) (h1 : (monCStep X c x e).m.sthFull = x.m.sthFull)
    (h2 : (monCStep X c x e).m.revFull = x.m.revFull) (h3 : (monCStep X c x e).m.conflictDelta = x.m.conflictDelta)
    (h4 : (monCStep X c x e).m.accusationDelta = x.m.accusationDelta) :
    sl.store (monCStep X c x e).m = sl.store x.m := by
  cases sl
  · exact h1
  · exact h2
  · exact h3
  · exact h4

/-- A list the end of a period has made so far. -/
def EndAt.made : EndAt → Slot → Option (List GossipObj)
  | .listRev a, .sth => some a
  | .listCon a _, .sth => some a
  | .listCon _ b, .rev => some b
  | .listAcc a _ _, .sth => some a
  | .listAcc _ b _, .rev => some b
  | .listAcc _ _ d, .con => some d
  | .stamp a _ _ _, .sth => some a
  | .stamp _ b _ _, .rev => some b
  | .stamp _ _ d _, .con => some d
  | .stamp _ _ _ e, .acc => some e
  | .save u, sl => some (sl.list u)
  | _, _ => none

/-- A step of the end of a period keeps the lists it has made and makes new ones from what the monitor has. -/
theorem made_step {clk : Clock} {s s' : MonState} {G : MonG} {a : EndAt} (h : gStep X c clk s G = some (s', .ending a)) :
    ∃ a0, G = .ending a0 ∧ ∀ (sl : Slot) (l : List GossipObj), a.made sl = some l → a0.made sl = some l ∨ l = (sl.store s).values := by
  cases G with
  | ending a0 =>
    refine ⟨a0, rfl, fun sl l hl => ?_⟩
    simp only [gStep, Option.some.injEq] at h
    cases a0 <;> simp only [endStep, Prod.mk.injEq, MonG.ending.injEq, reduceCtorEq, and_false] at h <;>
      obtain ⟨rfl, rfl⟩ := h <;> cases sl <;> simp only [EndAt.made, Slot.list, Option.some.injEq, reduceCtorEq] at hl <;>
      first | exact .inl (congrArg some hl) | exact .inr hl.symm
  | check g =>
    simp only [gStep, processThen] at h
    split at h
    · simp at h
    · split at h
      · simp at h
      · simp at h
      · simp only [Option.some.injEq, Prod.mk.injEq] at h
        have := h.2
        split at this <;> cases this
  | put g =>
    simp only [gStep, Option.some.injEq, Prod.mk.injEq] at h
    have := h.2
    split at this <;> cases this
  | putNew g => simp [gStep] at h
  | answered u k f =>
    have hp : ∀ g, processThen c s g = (s', .ending a) → False := by
      intro g hg
      have := congrArg Prod.snd hg
      simp only [processThen] at this
      split at this <;> cases this
    simp only [gStep] at h
    cases f with
    | failed => simp at h
    | obj g =>
      simp only at h
      split at h
      · cases h
      · simp at h
      · split at h
        · exact (hp g (Option.some.inj h)).elim
        · split at h
          · cases h
          · simp at h
          · exact (hp g (Option.some.inj h)).elim
  | waiting e k =>
    simp only [gStep, Option.some.injEq, Prod.mk.injEq] at h
    have := h.2
    cases k <;> simp only at this <;> split at this <;> cases this
  | silent e =>
    simp only [gStep, Option.some.injEq, Prod.mk.injEq] at h
    have := h.2
    split at this <;> cases this
  | accuse e =>
    simp only [gStep, Option.some.injEq, Prod.mk.injEq] at h
    have := h.2
    split at this <;> cases this
  | accusing e => simp [gStep] at h
  | crvLook key d =>
    simp only [gStep, Option.some.injEq, Prod.mk.injEq] at h
    have := h.2
    split at this <;> cases this
  | crvNew key d => simp [gStep] at h
  | done => simp [gStep] at h

/-- What holds of a list of an update: every object has the type of the list and was brought, and no id is listed twice. -/
def ListOk (φ : GossipObj → Prop) (sl : Slot) (l : List GossipObj) : Prop :=
  (∀ g ∈ l, g.type = sl.type ∧ φ g) ∧ (l.map GossipObj.getID).Nodup

structure MonCInv (φ : GossipObj → Prop) (x : MonC) : Prop where
  carried : ∀ G ∈ x.gs, ∀ o, Carried G o → φ o
  store : ∀ (sl : Slot) k g, (sl.store x.m).get k = some g → k = g.getID ∧ g.type = sl.type ∧ φ g
  made : ∀ a, MonG.ending a ∈ x.gs → ∀ sl l, a.made sl = some l → ListOk φ sl l
  files : ∀ p u, x.m.files.get p = some u → ∀ sl : Slot, ListOk φ sl (sl.list u)

theorem values_ids (m : GStore) (h : ∀ k g, m.get k = some g → k = g.getID) : (m.values.map GossipObj.getID).Nodup := by
  have hk : m.values.map GossipObj.getID = m.entries.map Prod.fst := by
    unfold GoMap.values
    rw [List.map_map]
    apply List.map_congr_left
    rintro ⟨a, b⟩ hab
    exact (h a b ((GoMap.get_eq_some_iff _ _ _).2 hab)).symm
  exact hk ▸ m.nodup

theorem monCInv_step (φ : GossipObj → Prop) (x : MonC) (e : MonCEvent) (hx : MonCInv φ x) (he : ∀ g, BringsC e g → φ g) :
    MonCInv φ (monCStep X c x e) := by
  have hcar : ∀ G ∈ (monCStep X c x e).gs, ∀ o, Carried G o → φ o := by
    intro G hG o ho
    rcases monCStep_carried X c x e hG ho with ⟨G0, h0, h1⟩ | h
    · exact hx.carried G0 h0 o h1
    · exact he o h
  rcases monCStep_cases X c x e with ⟨i, clk, G, G', m', rfl, _, hi, hs, h⟩ | ⟨h1, h2, h3, h4, _, _, _, _, h9, _, h⟩
  · have hE := gStep_eff X c hs
    refine ⟨hcar, ?_, ?_, ?_⟩
    · intro sl k g hg
      rw [h] at hg
      simp only at hg
      rcases slot_eff c sl hE with h' | ⟨o, hc, ht, h'⟩ | ⟨_, h'⟩ | h' <;> rw [h'] at hg
      · exact hx.store sl k g hg
      · rw [GoMap.get_set] at hg
        split at hg
        · rename_i hk
          cases hg
          exact ⟨by first | exact hk | exact hk.symm, ht, hx.carried G (List.mem_of_getElem? hi) _ hc⟩
        · exact hx.store sl k g hg
      · exact hx.store sl k g (get_filter_some.1 hg).1
      · exact hx.store sl k g (get_filter_some.1 hg).1
    · intro a ha sl l hl
      rw [h] at ha
      rcases List.mem_or_eq_of_mem_set ha with ha | ha
      · exact hx.made a ha sl l hl
      · rw [← ha] at hs
        obtain ⟨a0, rfl, h0⟩ := made_step X c hs
        rcases h0 sl l hl with h0 | rfl
        · exact hx.made a0 (List.mem_of_getElem? hi) sl l h0
        · refine ⟨fun g hg => ?_, values_ids _ fun k g hg => (hx.store sl k g hg).1⟩
          obtain ⟨k, hk⟩ := (GoMap.mem_values_iff _ _).1 hg
          exact (hx.store sl k g hk).2
    · intro p u hu sl
      rw [h] at hu
      simp only at hu
      rcases hE.files with h' | ⟨u', rfl, h'⟩ <;> rw [h'] at hu
      · exact hx.files p u hu sl
      · rw [GoMap.get_set] at hu
        split at hu
        · cases hu; exact hx.made _ (List.mem_of_getElem? hi) sl _ rfl
        · exact hx.files p u hu sl
  · refine ⟨hcar, ?_, ?_, ?_⟩
    · intro sl k g hg
      rw [slot_same X c sl h1 h2 h3 h4] at hg
      exact hx.store sl k g hg
    · intro a ha sl l hl
      rcases h with h | ⟨G, h, hc⟩
      · rw [h] at ha; exact hx.made a ha sl l hl
      · rw [h, List.mem_append, List.mem_singleton] at ha
        rcases ha with ha | rfl
        · exact hx.made a ha sl l hl
        · rcases hc with ⟨b, _, h⟩ | ⟨_, _, _, _, _, h⟩ | ⟨_, _, _, _, h⟩ | ⟨_, _, _, _, h⟩ | ⟨_, h⟩ <;> cases h
          cases sl <;> cases hl
    · intro p u hu sl
      rw [h9] at hu
      exact hx.files p u hu sl

theorem monCInv_run (φ : GossipObj → Prop) (h : List MonCEvent) (he : ∀ e ∈ h, ∀ g, BringsC e g → φ g) (x : MonC) (hx : MonCInv φ x) :
    MonCInv φ (monCRun X c x h) := by
  induction h generalizing x with
  | nil => exact hx
  | cons e t ih =>
    rw [monCRun_cons]
    exact ih (fun e' h' => he e' (List.mem_cons_of_mem _ h')) _ (monCInv_step X c φ x e hx (he e (by simp)))

theorem monCInv_init (φ : GossipObj → Prop) : MonCInv φ MonC.init :=
  ⟨(fun G hG => by cases hG), (fun sl k g hg => by cases sl <;> cases hg), (fun a ha => by cases ha), (fun p u hu => by cases hu)⟩

/-- C138, one half: in every schedule every update on file lists only objects that were posted to the monitor or answered to its
queries, each in the list of its type and no id twice. Missing for the full property: objects of other periods are listed
(`C138_violated_other_period`). -/
theorem C138_listed_partial (h : List MonCEvent) (p : Str) (u : ClientUpdate) (hu : (monCRun X c .init h).m.files.get p = some u)
    (sl : Slot) :
    (∀ g ∈ sl.list u, g.type = sl.type ∧ (.gossip (some g) ∈ h ∨ ∃ i, .answer i (.obj g) ∈ h)) ∧
    ((sl.list u).map GossipObj.getID).Nodup := by
  have hI := monCInv_run X c (fun g => ∃ e ∈ h, BringsC e g) h (fun e he g hg => ⟨e, he, hg⟩) .init (monCInv_init _)
  obtain ⟨h1, h2⟩ := hI.files p u hu sl
  refine ⟨fun g hg => ⟨(h1 g hg).1, ?_⟩, h2⟩
  obtain ⟨ht, e, he, ⟨b, rfl, hb⟩ | ⟨i, rfl⟩⟩ := h1 g hg
  · cases b with
    | none => rw [← hb] at ht; cases sl <;> cases ht
    | some g' => cases hb; exact .inl he
  · exact .inr ⟨i, he⟩

/-- Within a stretch in which the clock shows the period of `g`, nothing replaces `g` and no proof filed under "0" excludes it, the
monitor has `g`, and the end of the period lists it. -/
theorem held_run (sl : Slot) (k : Nat) (g : GossipObj) (h : List MonCEvent) (x : MonC)
    (hstore : (sl.store x.m).get g.getID = some g)
    (hmade : ∀ a, x.gs[k]? = some (.ending a) → ∀ l, a.made sl = some l → g ∈ l)
    (hk : k < x.gs.length)
    (hclk : ∀ i clk, .run i clk ∈ h → clk.period = g.period)
    (hold : ∀ G ∈ x.gs, ∀ o, Carried G o → o.getID = g.getID → o = g)
    (hnew : ∀ e ∈ h, ∀ o, BringsC e o → o.getID = g.getID → o = g)
    (hcon : sl = .sth ∨ sl = .rev → (monCRun X c x h).m.conflictPom.has ⟨go!"0", .CON_INIT, g.payload.p0⟩ = false) :
    ((sl.store (monCRun X c x h).m).get g.getID = some g) ∧
    (∀ a, (monCRun X c x h).gs[k]? = some (.ending a) → ∀ l, a.made sl = some l → g ∈ l) := by
  induction h generalizing x with
  | nil => exact ⟨hstore, hmade⟩
  | cons e t ih =>
    rw [monCRun_cons] at hcon ⊢
    have hcon0 : sl = .sth ∨ sl = .rev → x.m.conflictPom.has ⟨go!"0", .CON_INIT, g.payload.p0⟩ = false := by
      intro hs
      have h1 := hcon hs
      cases h0 : x.m.conflictPom.has ⟨go!"0", .CON_INIT, g.payload.p0⟩ with
      | false => rfl
      | true =>
        have := (C41_every_schedule_partial X c x (e :: t) _).1 h0
        rw [monCRun_cons] at this
        rw [this] at h1; exact h1
    have hcar : ∀ G ∈ (monCStep X c x e).gs, ∀ o, Carried G o → o.getID = g.getID → o = g := by
      intro G hG o ho
      rcases monCStep_carried X c x e hG ho with ⟨G0, h0, h1⟩ | h
      · exact hold G0 h0 o h1
      · exact hnew e (by simp) o h
    have hval : g ∈ (sl.store x.m).values := (GoMap.mem_values_iff _ _).2 ⟨_, hstore⟩
    have hclk' : ∀ i clk, .run i clk ∈ t → clk.period = g.period := fun i clk hh => hclk i clk (List.mem_cons_of_mem _ hh)
    have hnew' : ∀ e' ∈ t, ∀ o, BringsC e' o → o.getID = g.getID → o = g := fun e' hh => hnew e' (List.mem_cons_of_mem _ hh)
    rcases monCStep_cases X c x e with ⟨i, clk, G, G', m', rfl, _, hi, hs, h⟩ | ⟨h1, h2, h3, h4, _, _, _, _, _, _, h⟩
    · have hE := gStep_eff X c hs
      refine ih (monCStep X c x (.run i clk)) ?_ ?_ ?_ hclk' hcar hnew' hcon
      · rw [h]
        simp only
        rcases slot_eff c sl hE with h' | ⟨o, hc, ht, h'⟩ | ⟨hsl, h'⟩ | h' <;> rw [h']
        · exact hstore
        · by_cases hid : g.getID = o.getID
          · rw [hid, GoMap.get_set_self, hold G (List.mem_of_getElem? hi) o hc hid.symm]
          · rw [GoMap.get_set_ne _ _ hid, hstore]
        · exact get_filter_some.2 ⟨hstore, by simp only [cleanKeep, GossipObj.getID, hcon0 hsl, Bool.not_false]⟩
        · exact get_filter_some.2 ⟨hstore, by simp only [wipeKeep, GossipObj.getID, hclk i clk (by simp), decide_true]⟩
      · intro a ha l hl
        rw [h] at ha
        simp only at ha
        by_cases hik : i = k
        · subst hik
          rw [mon_set_get hi] at ha
          cases ha
          obtain ⟨a0, rfl, h0⟩ := made_step X c hs
          rcases h0 sl l hl with h0 | rfl
          · exact hmade a0 hi l h0
          · exact hval
        · rw [List.getElem?_set_ne hik] at ha
          exact hmade a ha l hl
      · rw [h]; simpa using hk
    · refine ih (monCStep X c x e) ?_ ?_ ?_ hclk' hcar hnew' hcon
      · rw [slot_same X c sl h1 h2 h3 h4]; exact hstore
      · intro a ha l hl
        rcases h with h | ⟨G, h, _⟩
        · rw [h] at ha; exact hmade a ha l hl
        · rw [h, List.getElem?_append_left hk] at ha; exact hmade a ha l hl
      · rcases h with h | ⟨G, h, _⟩ <;> rw [h]
        · exact hk
        · simp; omega

/-- C138, the other half: whatever handlers, queries, timers and other ends of periods do meanwhile, the update lists every object of
the period that is on file when the end of the period starts, if nothing with its id replaces it and, for tree heads and
revocations, no conflict proof filed under "0" excludes it. -/
theorem C138_held_partial (sl : Slot) (x : MonC) (k : Nat) (g : GossipObj) (h : List MonCEvent) (clk : Clock) (u : ClientUpdate)
    (hk : x.gs[k]? = some (.ending .cleanSth)) (hg : (sl.store x.m).get g.getID = some g)
    (hclk : ∀ i clk', .run i clk' ∈ h → clk'.period = g.period)
    (hold : ∀ G ∈ x.gs, ∀ o, Carried G o → o.getID = g.getID → o = g)
    (hnew : ∀ e ∈ h, ∀ o, BringsC e o → o.getID = g.getID → o = g)
    (hcon : sl = .sth ∨ sl = .rev → (monCRun X c x h).m.conflictPom.has ⟨go!"0", .CON_INIT, g.payload.p0⟩ = false)
    (hd : (monCRun X c x h).dead = false) (hu : (monCRun X c x h).gs[k]? = some (.ending (.save u))) :
    g ∈ sl.list u ∧ (monCRun X c x (h ++ [.run k clk])).m.files.get (periodIO c clk) = some u := by
  constructor
  · refine (held_run X c sl k g h x hg ?_ (List.getElem?_eq_some_iff.1 hk).1 hclk hold hnew hcon).2 _ hu _ rfl
    intro a ha l hl
    rw [hk] at ha
    cases ha
    cases sl <;> cases hl
  · rw [monCRun_append]
    change (monCStep X c (monCRun X c x h) (.run k clk)).m.files.get _ = _
    rw [monCStep_run X c hd hu rfl]
    exact GoMap.get_set_self _ _ _

/-! #### Goroutines that are not interrupted -/

/-- `n` steps of goroutine `k`. -/
def aloneM (clk : Clock) (k n : Nat) : List MonCEvent := List.replicate n (.run k clk)

theorem aloneM_succ (clk : Clock) (x : MonC) (k n : Nat) :
    monCRun X c x (aloneM clk k (n + 1)) = monCRun X c (monCStep X c x (.run k clk)) (aloneM clk k n) := by
  rw [aloneM, List.replicate_succ, monCRun_cons]; rfl

theorem aloneM_done (clk : Clock) (n : Nat) (x : MonC) (k : Nat) (hd : x.dead = false) (hk : x.gs[k]? = some .done) :
    monCRun X c x (aloneM clk k n) = x := by
  induction n with
  | zero => rfl
  | succ n ih =>
    rw [aloneM_succ, monCStep_run X c hd hk rfl, show x.gs.set k .done = x.gs from ?_]
    · cases x; cases hd; exact ih
    · apply List.ext_getElem?
      intro j
      by_cases hj : k = j
      · subst hj; rw [mon_set_get hk, hk]
      · rw [List.getElem?_set_ne hj]

theorem aloneM_step {clk : Clock} {m m' : MonState} {l : List MonG} {k n : Nat} {G G' : MonG} (hl : k < l.length)
    (h : gStep X c clk m G = some (m', G')) :
    monCRun X c ⟨m, l.set k G, false⟩ (aloneM clk k (n + 1)) = monCRun X c ⟨m', l.set k G', false⟩ (aloneM clk k n) := by
  rw [aloneM_succ, monCStep_run X c rfl (List.getElem?_set_self hl) h]
  simp only [List.set_set]

theorem monC_start {x : MonC} {k : Nat} {G : MonG} (hd : x.dead = false) (hk : x.gs[k]? = some G) : x = ⟨x.m, x.gs.set k G, false⟩ := by
  have : x.gs.set k G = x.gs := by
    apply List.ext_getElem?
    intro j
    by_cases hj : k = j
    · subst hj; rw [mon_set_get hk, hk]
    · rw [List.getElem?_set_ne hj]
  rw [this, ← hd]

/-- The first half of the end of a period: what conflicts and what is of other periods goes. -/
theorem end_clears (clk : Clock) (x : MonC) (k : Nat) (hd : x.dead = false) (hk : x.gs[k]? = some (.ending .cleanSth)) :
    monCRun X c x (aloneM clk k 7) = ⟨Mon.wipeStorage clk (cleanConflicting x.m), x.gs.set k (.ending .listSth), false⟩ := by
  have hl : k < x.gs.length := (List.getElem?_eq_some_iff.1 hk).1
  rw [monC_start hd hk]
  iterate 7 rw [aloneM_step X c hl rfl]
  simp only [List.set_set]
  rfl

/-- The second half: the update is made and written. -/
theorem end_writes (clk : Clock) (x : MonC) (k : Nat) (hd : x.dead = false) (hk : x.gs[k]? = some (.ending .listSth)) :
    monCRun X c x (aloneM clk k 7) =
      ⟨saveStorage X x.m (periodIO c clk) (generateUpdate c clk x.m), x.gs.set k .done, false⟩ := by
  have hl : k < x.gs.length := (List.getElem?_eq_some_iff.1 hk).1
  rw [monC_start hd hk]
  iterate 7 rw [aloneM_step X c hl rfl]
  simp only [List.set_set]
  rfl

theorem put_alone (clk : Clock) (x : MonC) (k : Nat) (g : GossipObj) (hd : x.dead = false) (hk : x.gs[k]? = some (.put g)) :
    monCRun X c x (aloneM clk k 2) = ⟨storeObject X x.m g, x.gs.set k .done, false⟩ := by
  simp only [aloneM_succ]
  rw [monCStep_run X c hd hk rfl]
  by_cases ht : g.type = .CON_INIT ∨ g.type = .ACC_FULL
  · rw [if_pos ht, monCStep_run X c rfl (mon_set_get hk) rfl]
    simp only [List.set_set]
    rcases ht with ht | ht <;> simp [putObject, putNewObject, storeObject, ht, monCRun, aloneM]
  · rw [if_neg ht, monCStep_run X c rfl (mon_set_get hk) rfl]
    simp only [List.set_set]
    have : putObject x.m g X = storeObject X x.m g := by
      unfold putObject
      split
      · rename_i h; exact absurd (.inl h) ht
      · rename_i h; exact absurd (.inr h) ht
      · rfl
    rw [this]; rfl

theorem process_alone (clk : Clock) (x : MonC) (k : Nat) (s : MonState) (g : GossipObj) (hx : k < x.gs.length) :
    monCRun X c ⟨(processThen c s g).1, x.gs.set k (processThen c s g).2, false⟩ (aloneM clk k 2) =
      ⟨processValid X c s g, x.gs.set k .done, false⟩ := by
  have hself : ∀ G, (x.gs.set k G)[k]? = some G := fun G => List.getElem?_set_self hx
  by_cases ht : g.type = .ACC_FULL ∨ g.type = .CON_INIT ∨ g.type = .STH_FULL ∨ g.type = .REV_FULL
  · have h2 : (processThen c s g).2 = .put g := by simp only [processThen]; rw [if_pos ht]
    rw [h2, put_alone X c clk ⟨(processThen c s g).1, x.gs.set k (.put g), false⟩ k g rfl (hself _)]
    simp only [List.set_set, MonC.mk.injEq, and_true]
    unfold processValid processThen
    simp only
    rw [if_pos ht]
  · have h2 : (processThen c s g).2 = .done := by simp only [processThen]; rw [if_neg ht]
    rw [h2, aloneM_done X c clk 2 ⟨(processThen c s g).1, x.gs.set k .done, false⟩ k rfl (hself _)]
    simp only [MonC.mk.injEq, and_true]
    unfold processValid processThen
    simp only
    rw [if_neg ht]

/-- A handler. -/
theorem handler_alone (clk : Clock) (x : MonC) (k : Nat) (b : Option GossipObj) (hd : x.dead = false)
    (hk : x.gs[k]? = some (.check (b.getD .zero))) :
    monCRun X c x (aloneM clk k 3) = ⟨handleGossip X c x.m b, x.gs.set k .done, false⟩ := by
  have hl : k < x.gs.length := (List.getElem?_eq_some_iff.1 hk).1
  rw [aloneM_succ]
  by_cases hdup : isDuplicate x.m (b.getD .zero) = true
  · rw [monCStep_run X c hd hk (m' := x.m) (G' := .done) (by simp only [gStep]; rw [if_pos hdup]),
      aloneM_done X c clk 2 _ k rfl (mon_set_get hk)]
    simp only [handleGossip, hdup, if_true]
  · have hput : (b.getD .zero).type = .STH_INIT ∨ (b.getD .zero).type = .REV_INIT →
        monCRun X c (monCStep X c x (.run k clk)) (aloneM clk k 2) = ⟨handleGossip X c x.m b, x.gs.set k .done, false⟩ := by
      intro ht
      rw [monCStep_run X c hd hk (m' := x.m) (G' := .put (b.getD .zero))
          (by rcases ht with ht | ht <;> simp only [gStep, ht] <;> rw [if_neg hdup]),
        put_alone X c clk _ k _ rfl (mon_set_get hk)]
      simp only [List.set_set, MonC.mk.injEq, and_true]
      rcases ht with ht | ht <;> simp only [handleGossip, ht] <;> rw [if_neg hdup]
    by_cases h1 : (b.getD .zero).type = .STH_INIT
    · exact hput (.inl h1)
    · by_cases h2 : (b.getD .zero).type = .REV_INIT
      · exact hput (.inr h2)
      · rw [monCStep_run X c hd hk (m' := (processThen c x.m (b.getD .zero)).1) (G' := (processThen c x.m (b.getD .zero)).2) (by
            simp only [gStep]
            rw [if_neg hdup]),
          process_alone X c clk x k x.m _ hl]
        simp only [MonC.mk.injEq, and_true]
        unfold handleGossip
        simp only
        rw [if_neg hdup]

theorem answered_alone (clk : Clock) (x : MonC) (k : Nat) (u : Str) (kd : EntityKind) (f : Fetched) (hd : x.dead = false)
    (hk : x.gs[k]? = some (.answered u kd f)) :
    (∀ s', answerQuery X c x.m u kd f = some s' → monCRun X c x (aloneM clk k 3) = ⟨s', x.gs.set k .done, false⟩) ∧
    (answerQuery X c x.m u kd f = none → (monCRun X c x (aloneM clk k 3)).dead = true) := by
  have hl : k < x.gs.length := (List.getElem?_eq_some_iff.1 hk).1
  have hdead : gStep X c clk x.m (.answered u kd f) = none → (monCRun X c x (aloneM clk k 3)).dead = true := by
    intro h
    have h1 : monCStep X c x (.run k clk) = { x with dead := true } := by
      unfold monCStep; rw [if_neg (by rw [hd]; decide)]; simp only [hk, h]
    simp only [aloneM_succ]
    rw [h1]
    iterate 2 rw [monCStep_dead X c rfl]
    rfl
  have hwait : gStep X c clk x.m (.answered u kd f) = some ({ x.m with waits := x.m.waits ++ [(u, kd)] }, .done) →
      monCRun X c x (aloneM clk k 3) = ⟨{ x.m with waits := x.m.waits ++ [(u, kd)] }, x.gs.set k .done, false⟩ := by
    intro h
    rw [aloneM_succ, monCStep_run X c hd hk h, aloneM_done X c clk 2 _ k rfl (mon_set_get hk)]
  have hproc : ∀ g, gStep X c clk x.m (.answered u kd f) = some (processThen c x.m g) →
      monCRun X c x (aloneM clk k 3) = ⟨processValid X c x.m g, x.gs.set k .done, false⟩ := by
    intro g h
    rw [aloneM_succ, monCStep_run X c hd hk (m' := (processThen c x.m g).1) (G' := (processThen c x.m g).2) h,
      process_alone X c clk x k x.m g hl]
  cases f with
  | failed => exact ⟨fun s' h => by cases h; exact hwait rfl, fun h => by cases h⟩
  | obj g =>
    simp only [gStep, answerQuery] at hdead hwait hproc ⊢
    split
    · rename_i hv; simp only [hv] at hdead; exact ⟨(fun s' h => by cases h), fun _ => hdead trivial⟩
    · rename_i hv; simp only [hv] at hwait; exact ⟨fun s' h => by cases h; exact hwait trivial, fun h => by cases h⟩
    · rename_i hv
      cases kd with
      | logger =>
        simp only [hv] at hproc
        exact ⟨fun s' h => by cases h; exact hproc g rfl, fun h => by cases h⟩
      | ca =>
        simp only [hv] at hdead hwait hproc ⊢
        split
        · rename_i h1; simp only [h1] at hdead; exact ⟨(fun s' h => by cases h), fun _ => hdead trivial⟩
        · rename_i h1; simp only [h1] at hwait; exact ⟨fun s' h => by cases h; exact hwait trivial, fun h => by cases h⟩
        · rename_i h1; simp only [h1] at hproc; exact ⟨fun s' h => by cases h; exact hproc g rfl, fun h => by cases h⟩

theorem set_mid {α : Type} (l r : List α) (a b : α) : (l ++ a :: r).set l.length b = l ++ b :: r := by
  induction l with
  | nil => rfl
  | cons x t ih => simp only [List.cons_append, List.length_cons, List.set_cons_succ, ih]

theorem get_mid {α : Type} (l r : List α) (a : α) : (l ++ a :: r)[l.length]? = some a := by simp

/-- A step of the goroutine after `l`. -/
theorem run_mid {clk : Clock} {m m' : MonState} {l r : List MonG} {G G' : MonG} (h : gStep X c clk m G = some (m', G')) :
    monCStep X c ⟨m, l ++ G :: r, false⟩ (.run l.length clk) = ⟨m', l ++ G' :: r, false⟩ := by
  rw [monCStep_run X c rfl (get_mid l r G) h, set_mid]

theorem clears_mid (clk : Clock) (m : MonState) (l r : List MonG) :
    monCRun X c ⟨m, l ++ .ending .cleanSth :: r, false⟩ (aloneM clk l.length 7) =
      ⟨Mon.wipeStorage clk (cleanConflicting m), l ++ .ending .listSth :: r, false⟩ := by
  rw [end_clears X c clk ⟨m, l ++ .ending .cleanSth :: r, false⟩ l.length rfl (get_mid l r _), set_mid]

theorem writes_mid (clk : Clock) (m : MonState) (l r : List MonG) :
    monCRun X c ⟨m, l ++ .ending .listSth :: r, false⟩ (aloneM clk l.length 7) =
      ⟨saveStorage X m (periodIO c clk) (generateUpdate c clk m), l ++ .done :: r, false⟩ := by
  rw [end_writes X c clk ⟨m, l ++ .ending .listSth :: r, false⟩ l.length rfl (get_mid l r _), set_mid]

/-- A POST whose handler is not interrupted. -/
theorem post_alone (clk : Clock) (m : MonState) (l : List MonG) (b : Option GossipObj) :
    monCRun X c ⟨m, l, false⟩ (.gossip b :: aloneM clk l.length 3) = ⟨handleGossip X c m b, l ++ [.done], false⟩ := by
  rw [monCRun_cons, show monCStep X c ⟨m, l, false⟩ (.gossip b) = ⟨m, l ++ [.check (b.getD .zero)], false⟩ from rfl,
    handler_alone X c clk _ _ b rfl (get_mid l [] _), set_mid]

/-- The timer of `Wait_then_accuse`, not interrupted; `ok` is whether a statement is there. -/
theorem wait_alone (clk : Clock) (m : MonState) (l : List MonG) (e : Str) (k : EntityKind) (ok : Bool)
    (hw : gStep X c clk m (.waiting e k) = some (m, if ok then .done else .silent e)) :
    (monCRun X c ⟨m, l ++ [.waiting e k], false⟩ (List.replicate 4 (.run l.length clk))).m =
      (if checkEntityPom m clk e = false ∧ ok = false then accuseEntity c clk m e else m) ∧
    (monCRun X c ⟨m, l ++ [.waiting e k], false⟩ (List.replicate 4 (.run l.length clk))).dead = false := by
  have done : ∀ n, monCRun X c ⟨m, l ++ [.done], false⟩ (List.replicate n (.run l.length clk)) = ⟨m, l ++ [.done], false⟩ :=
    fun n => aloneM_done X c clk n _ _ rfl (get_mid _ [] _)
  rw [List.replicate_succ, monCRun_cons, run_mid X c hw]
  cases ok with
  | true => rw [if_pos rfl, done, if_neg (by simp)]; exact ⟨rfl, rfl⟩
  | false =>
    rw [if_neg (by simp)]
    by_cases hp : checkEntityPom m clk e = true
    · rw [if_neg (by rw [hp]; simp), List.replicate_succ, monCRun_cons,
        run_mid X c (m' := m) (G' := .done) (by simp only [gStep, hp, if_true]), done]
      exact ⟨rfl, rfl⟩
    · rw [if_pos ⟨by simpa using hp, rfl⟩]
      rw [List.replicate_succ, monCRun_cons, run_mid X c (m' := m) (G' := .accuse e) (by simp only [gStep]; rw [if_neg hp]),
        List.replicate_succ, monCRun_cons, run_mid X c (m' := m) (G' := .accusing e) (by simp only [gStep]; rw [if_neg hp]),
        List.replicate_succ, monCRun_cons, run_mid X c (m' := send m (accusation c clk e)) (G' := .done) rfl]
      unfold accuseEntity
      rw [if_neg hp]
      exact ⟨rfl, rfl⟩

/-- Histories of whole events are among the schedules: each event is a goroutine that is not interrupted. -/
theorem monC_event (x : MonC) (hd : x.dead = false) (e : MonEvent) :
    (∀ s', monStep X c x.m e = some s' → ∃ sched, (monCRun X c x sched).m = s' ∧ (monCRun X c x sched).dead = false) ∧
    (monStep X c x.m e = none → ∃ sched, (monCRun X c x sched).dead = true) := by
  have hx : x = ⟨x.m, x.gs, false⟩ := by rw [← hd]
  have stay : ∃ sched, (monCRun X c x sched).m = x.m ∧ (monCRun X c x sched).dead = false := ⟨[], rfl, hd⟩
  cases e with
  | gossip b =>
    refine ⟨fun s' h => ⟨.gossip b :: aloneM ⟨[], [], []⟩ x.gs.length 3, ?_⟩, fun h => by cases h⟩
    cases h
    rw [hx, post_alone]; exact ⟨rfl, rfl⟩
  | query clk =>
    refine ⟨fun s' h => ⟨[.query clk], ?_⟩, fun h => by cases h⟩
    cases h
    rw [hx]; exact ⟨rfl, rfl⟩
  | answer i f =>
    simp only [monStep]
    cases hq : x.m.queries[i]? with
    | none => exact ⟨fun s' h => by cases h; exact stay, fun h => by cases h⟩
    | some p =>
      obtain ⟨u, k⟩ := p
      have h1 : monCStep X c x (.answer i f) =
          ⟨{ x.m with queries := x.m.queries.eraseIdx i }, x.gs ++ [.answered u k f], false⟩ := by
        unfold monCStep; rw [if_neg (by rw [hd]; decide)]; simp only [hq, hd]
      obtain ⟨h2, h3⟩ := answered_alone X c ⟨[], [], []⟩ ⟨{ x.m with queries := x.m.queries.eraseIdx i }, x.gs ++ [.answered u k f], false⟩
        x.gs.length u k f rfl (get_mid _ [] _)
      refine ⟨fun s' h => ⟨.answer i f :: aloneM ⟨[], [], []⟩ x.gs.length 3, ?_⟩, fun h =>
        ⟨.answer i f :: aloneM ⟨[], [], []⟩ x.gs.length 3, ?_⟩⟩
      · rw [monCRun_cons, h1, h2 s' h]; exact ⟨rfl, rfl⟩
      · rw [monCRun_cons, h1]; exact h3 h
  | wait i clk =>
    simp only [monStep]
    cases hq : x.m.waits[i]? with
    | none => exact ⟨fun s' h => by cases h; exact stay, fun h => by cases h⟩
    | some p =>
      obtain ⟨u, k⟩ := p
      refine ⟨fun s' h => ?_, fun h => by cases h⟩
      have h1 : monCStep X c x (.wait i) = ⟨{ x.m with waits := x.m.waits.eraseIdx i }, x.gs ++ [.waiting u k], false⟩ := by
        unfold monCStep; rw [if_neg (by rw [hd]; decide)]; simp only [hq, hd]
      cases h
      refine ⟨.wait i :: List.replicate 4 (.run x.gs.length clk), ?_⟩
      generalize hm : ({ x.m with waits := x.m.waits.eraseIdx i } : MonState) = m at h1
      rw [monCRun_cons, h1]
      cases k
      · exact wait_alone X c clk m x.gs u _ (m.temp.has ⟨clk.period, .STH_INIT, u⟩) rfl
      · exact wait_alone X c clk m x.gs u _ (m.temp.has ⟨clk.period, .REV_INIT, u⟩) rfl
  | crv i =>
    simp only [monStep]
    cases hq : x.m.crvTimers[i]? with
    | none => exact ⟨fun s' h => by cases h; exact stay, fun h => by cases h⟩
    | some p =>
      obtain ⟨key, d⟩ := p
      refine ⟨fun s' h => ?_, fun h => by cases h⟩
      have h1 : monCStep X c x (.crv i) = ⟨{ x.m with crvTimers := x.m.crvTimers.eraseIdx i }, x.gs ++ [.crvLook key d], false⟩ := by
        unfold monCStep; rw [if_neg (by rw [hd]; decide)]; simp only [hq, hd]
      cases h
      refine ⟨.crv i :: List.replicate 2 (.run x.gs.length ⟨[], [], []⟩), ?_⟩
      generalize hm : ({ x.m with crvTimers := x.m.crvTimers.eraseIdx i } : MonState) = m at h1
      rw [monCRun_cons, h1, List.replicate_succ, monCRun_cons, run_mid X c (m' := m) (G' := if m.crv.has key then .done else .crvNew key d) rfl]
      unfold fireCRV
      split
      · rw [List.replicate_succ, monCRun_cons, run_mid X c (m' := m) (G' := .done) rfl]; exact ⟨rfl, rfl⟩
      · rw [List.replicate_succ, monCRun_cons, run_mid X c (G' := .done) rfl]; exact ⟨rfl, rfl⟩
  | finish clk =>
    refine ⟨fun s' h => ⟨.finish :: (aloneM clk x.gs.length 7 ++ aloneM clk x.gs.length 7), ?_⟩, fun h => by cases h⟩
    cases h
    have h1 : monCStep X c x .finish = ⟨x.m, x.gs ++ [.ending .cleanSth], false⟩ := by rw [hx]; rfl
    rw [monCRun_cons, h1, monCRun_append, clears_mid, writes_mid]
    exact ⟨rfl, rfl⟩

/-- Every history of whole events is a schedule, so whatever such histories can lead to, schedules can. -/
theorem monC_history (h : List MonEvent) (x : MonC) (hd : x.dead = false) :
    (∀ s', monRun X c x.m h = some s' → ∃ sched, (monCRun X c x sched).m = s' ∧ (monCRun X c x sched).dead = false) ∧
    (monRun X c x.m h = none → ∃ sched, (monCRun X c x sched).dead = true) := by
  induction h generalizing x with
  | nil => exact ⟨fun s' h => ⟨[], Option.some.inj h, hd⟩, fun h => by cases h⟩
  | cons e t ih =>
    obtain ⟨h1, h2⟩ := monC_event X c x hd e
    simp only [monRun]
    cases he : monStep X c x.m e with
    | none => exact ⟨(fun s' h => by cases h), fun _ => h2 he⟩
    | some s1 =>
      obtain ⟨sched, hm, hd'⟩ := h1 s1 he
      obtain ⟨i1, i2⟩ := ih (monCRun X c x sched) hd'
      rw [hm] at i1 i2
      refine ⟨fun s' h => ?_, fun h => ?_⟩
      · obtain ⟨sched', h'⟩ := i1 s' h
        exact ⟨sched ++ sched', by rw [monCRun_append]; exact h'⟩
      · obtain ⟨sched', h'⟩ := i2 h
        exact ⟨sched ++ sched', by rw [monCRun_append]; exact h'⟩

/-! #### Objects that arrive while a period ends -/

/-- The end of a period with a POST after the storages were cleared. -/
def endWithPost (clk : Clock) (n : Nat) (g : GossipObj) : List MonCEvent :=
  .finish :: (aloneM clk n 7 ++ .gossip (some g) :: aloneM clk (n + 1) 3 ++ aloneM clk n 7)

theorem endWithPost_run (clk : Clock) (x : MonC) (hd : x.dead = false) (g : GossipObj) :
    (monCRun X c x (endWithPost clk x.gs.length g)).m =
      (let s := handleGossip X c (Mon.wipeStorage clk (cleanConflicting x.m)) (some g)
       saveStorage X s (periodIO c clk) (generateUpdate c clk s)) := by
  obtain ⟨m, l, d⟩ := x
  cases hd
  unfold endWithPost
  rw [monCRun_cons, show monCStep X c ⟨m, l, false⟩ .finish = ⟨m, l ++ [.ending .cleanSth], false⟩ from rfl, monCRun_append, monCRun_append,
    clears_mid]
  have := post_alone X c clk (Mon.wipeStorage clk (cleanConflicting m)) (l ++ [.ending .listSth]) (some g)
  rw [List.length_append, List.length_singleton] at this
  rw [this, List.append_assoc, List.singleton_append, writes_mid]

/-- A tree head posted after the storages were cleared is listed. -/
theorem endWithPost_lists (clk : Clock) (x : MonC) (hd : x.dead = false) (g : GossipObj) (ht : g.type = .STH_FULL) :
    ∃ u, (monCRun X c x (endWithPost clk x.gs.length g)).m.files.get (periodIO c clk) = some u ∧ u.period = clk.period ∧ g ∈ u.sths ∧
      (monCRun X c x (endWithPost clk x.gs.length g)).m.conflictPom = x.m.conflictPom := by
  rw [endWithPost_run X c clk x hd g]
  generalize hw : Mon.wipeStorage clk (cleanConflicting x.m) = w
  have hcp : w.conflictPom = x.m.conflictPom := by rw [← hw]; rfl
  refine ⟨_, GoMap.get_set_self _ _ _, rfl, ?_, ?_⟩
  · simp only [generateUpdate]
    refine (GoMap.mem_values_iff _ _).2 ⟨g.getID, ?_⟩
    by_cases hdup : isDuplicate w g = true
    · have h1 : handleGossip X c w (some g) = w := by simp only [handleGossip, Option.getD_some, hdup, if_true]
      rw [h1]
      simp only [isDuplicate, Mon.getObject, GossipObj.getID, ht, decide_eq_true_eq] at hdup
      simp only [GossipObj.getID, ht]
      cases hg : w.sthFull.get ⟨g.period, .STH_FULL, g.payload.p0⟩ with
      | none => rw [hg] at hdup; simp only [Option.getD_none] at hdup; rw [← hdup] at ht; cases ht
      | some g' => rw [hg] at hdup; simp only [Option.getD_some] at hdup; rw [hdup]
    · have h1 : handleGossip X c w (some g) = storeObject X w g := by
        simp only [handleGossip, Option.getD_some]
        rw [if_neg hdup]
        simp [ht, processValid]
      rw [h1]
      simp [storeObject, ht, GoMap.get_set_self]
  · simp only [saveStorage]
    rw [← hcp]
    simp only [handleGossip, Option.getD_some]
    split
    · rfl
    · simp [ht, processValid, storeObject]

/-- C138 fails: a tree head of any other period that arrives after the storages were cleared and before they are listed is in the update
of this period. -/
theorem C138_violated_other_period (clk : Clock) (x : MonC) (hd : x.dead = false) (g : GossipObj) (ht : g.type = .STH_FULL)
    (hp : g.period ≠ clk.period) :
    ∃ h u, (monCRun X c x h).m.files.get (periodIO c clk) = some u ∧ u.period = clk.period ∧ ∃ o ∈ u.sths, o.period ≠ u.period := by
  obtain ⟨u, h1, h2, h3, _⟩ := endWithPost_lists X c clk x hd g ht
  exact ⟨_, u, h1, h2, g, h3, by rw [h2]; exact hp⟩

/-- C138 fails for excluded entities too: although a conflict proof filed under "0" against it is on file before the end of the period
starts, the update lists a tree head of the entity. -/
theorem C138_violated_excluded (clk : Clock) (x : MonC) (hd : x.dead = false) (g : GossipObj) (ht : g.type = .STH_FULL)
    (hp : g.period = clk.period) (hc : x.m.conflictPom.has ⟨go!"0", .CON_INIT, g.payload.p0⟩ = true) :
    ∃ h u, (monCRun X c x h).m.files.get (periodIO c clk) = some u ∧
      (∃ o ∈ u.sths, o.period = u.period ∧ x.m.conflictPom.has ⟨go!"0", .CON_INIT, o.payload.p0⟩ = true ∧
        (monCRun X c x h).m.conflictPom.has ⟨go!"0", .CON_INIT, o.payload.p0⟩ = true) := by
  obtain ⟨u, h1, h2, h3, h4⟩ := endWithPost_lists X c clk x hd g ht
  exact ⟨_, u, h1, g, h3, by rw [h2]; exact hp, hc, by rw [h4]; exact hc⟩

/-! ### C139: vectors -/

/-- C139 fails: two timers of one CA that both look before either stores. The vector of the first is on file and is then replaced by that
of the second: every certificate revoked in the first only is no longer revoked. -/
theorem C139_violated_overwritten (x : MonC) (hd : x.dead = false) (key : Str) (d d' : BitSet) (rest : List (Str × BitSet))
    (ht : x.m.crvTimers = (key, d) :: (key, d') :: rest) (hn : x.m.crv.get key = none) :
    ∃ h1 h2, (monCRun X c x h1).m.crv.get key = some d ∧ (monCRun X c x (h1 ++ h2)).m.crv.get key = some d' := by
  obtain ⟨m, l, dd⟩ := x
  cases hd
  let clk : Clock := ⟨[], [], []⟩
  have hh : m.crv.has key = false := by simp only [GoMap.has, hn, Option.isSome_none]
  refine ⟨[.crv 0, .crv 0, .run l.length clk, .run (l.length + 1) clk, .run l.length clk], [.run (l.length + 1) clk], ?_⟩
  have hrun : monCRun X c ⟨m, l, false⟩ [.crv 0, .crv 0, .run l.length clk, .run (l.length + 1) clk, .run l.length clk] =
      ⟨{ m with crvTimers := rest, crv := m.crv.set key d }, (l ++ [.done]) ++ [.crvNew key d'], false⟩ := by
    have e1 : monCStep X c ⟨m, l, false⟩ (.crv 0) = ⟨{ m with crvTimers := (key, d') :: rest }, l ++ [.crvLook key d], false⟩ := by
      unfold monCStep; simp [show m.crvTimers = (key, d) :: (key, d') :: rest from ht]
    have e2 : monCStep X c ⟨{ m with crvTimers := (key, d') :: rest }, l ++ [.crvLook key d], false⟩ (.crv 0) =
        ⟨{ m with crvTimers := rest }, l ++ .crvLook key d :: [.crvLook key d'], false⟩ := by
      unfold monCStep; simp
    have look : ∀ b, gStep X c clk ({ m with crvTimers := rest } : MonState) (.crvLook key b) =
        some ({ m with crvTimers := rest }, .crvNew key b) := by
      intro b; simp [gStep, hh]
    rw [monCRun_cons, e1, monCRun_cons, e2, monCRun_cons, run_mid X c (look d), monCRun_cons,
      show l ++ MonG.crvNew key d :: [.crvLook key d'] = (l ++ [.crvNew key d]) ++ .crvLook key d' :: [] by simp,
      show l.length + 1 = (l ++ [MonG.crvNew key d]).length by simp, run_mid X c (look d'), monCRun_cons,
      show (l ++ [MonG.crvNew key d]) ++ [MonG.crvNew key d'] = l ++ .crvNew key d :: [.crvNew key d'] by simp,
      run_mid X c (m' := { m with crvTimers := rest, crv := m.crv.set key d }) (G' := .done) rfl]
    simp [monCRun]
  rw [monCRun_append, hrun]
  refine ⟨GoMap.get_set_self _ _ _, ?_⟩
  rw [monCRun_cons, show l.length + 1 = (l ++ [MonG.done]).length by simp, run_mid X c (G' := .done) rfl]
  exact GoMap.get_set_self _ _ _

/-- No timer has found the CA without a vector and not yet stored one. -/
def NoneStoring (key : Str) (gs : List MonG) : Prop := ∀ G ∈ gs, ∀ d, G ≠ .crvNew key d

/-- At most one timer of the CA is under way. -/
def OneTimer (key : Str) (gs : List MonG) : Prop :=
  ∀ (i j : Nat) (d d' : BitSet), (gs[i]? = some (.crvLook key d) ∨ gs[i]? = some (.crvNew key d)) →
    (gs[j]? = some (.crvLook key d') ∨ gs[j]? = some (.crvNew key d')) → i = j

theorem crvNew_from {clk : Clock} {s s' : MonState} {G : MonG} {key : Str} {d : BitSet}
    (h : gStep X c clk s G = some (s', .crvNew key d)) : G = .crvLook key d ∧ s.crv.has key = false ∧ s' = s := by
  cases G with
  | crvLook k b =>
    simp only [gStep, Option.some.injEq, Prod.mk.injEq] at h
    obtain ⟨h1, h2⟩ := h
    split at h2
    · cases h2
    · rename_i hh; cases h2; exact ⟨rfl, by simpa using hh, h1.symm⟩
  | check g =>
    simp only [gStep, processThen] at h
    split at h
    · simp at h
    · split at h
      · simp at h
      · simp at h
      · simp only [Option.some.injEq, Prod.mk.injEq] at h
        have := h.2
        split at this <;> cases this
  | put g =>
    simp only [gStep, Option.some.injEq, Prod.mk.injEq] at h
    have := h.2
    split at this <;> cases this
  | putNew g => simp [gStep] at h
  | answered u k f =>
    have hp : ∀ g, processThen c s g = (s', .crvNew key d) → False := by
      intro g hg
      have := congrArg Prod.snd hg
      simp only [processThen] at this
      split at this <;> cases this
    simp only [gStep] at h
    cases f with
    | failed => simp at h
    | obj g =>
      simp only at h
      split at h
      · cases h
      · simp at h
      · split at h
        · exact (hp g (Option.some.inj h)).elim
        · split at h
          · cases h
          · simp at h
          · exact (hp g (Option.some.inj h)).elim
  | waiting e k =>
    simp only [gStep, Option.some.injEq, Prod.mk.injEq] at h
    have := h.2
    cases k <;> simp only at this <;> split at this <;> cases this
  | silent e =>
    simp only [gStep, Option.some.injEq, Prod.mk.injEq] at h
    have := h.2
    split at this <;> cases this
  | accuse e =>
    simp only [gStep, Option.some.injEq, Prod.mk.injEq] at h
    have := h.2
    split at this <;> cases this
  | accusing e => simp [gStep] at h
  | crvNew k b => simp [gStep] at h
  | ending a => cases a <;> simp [gStep, endStep] at h
  | done => simp [gStep] at h

/-- C139: a vector that is on file stays as it is in every schedule that follows, if no timer has looked before. -/
theorem C139_settled_partial (key : Str) (v : BitSet) (h : List MonCEvent) (x : MonC) (hv : x.m.crv.get key = some v)
    (hn : NoneStoring key x.gs) :
    (monCRun X c x h).m.crv.get key = some v ∧ NoneStoring key (monCRun X c x h).gs := by
  induction h generalizing x with
  | nil => exact ⟨hv, hn⟩
  | cons e t ih =>
    rw [monCRun_cons]
    rcases monCStep_cases X c x e with ⟨i, clk, G, G', m', rfl, _, hi, hs, h⟩ | ⟨_, _, _, _, _, _, h7, _, _, _, h⟩
    · rw [h]
      refine ih _ ?_ ?_
      · rcases (gStep_eff X c hs).crv with h1 | ⟨k, d, rfl, h1⟩
        · simp only [h1, hv]
        · have hk : key ≠ k := by
            intro hk; subst hk; exact hn _ (List.mem_of_getElem? hi) d rfl
          simp only [h1, GoMap.get_set_ne _ _ hk, hv]
      · intro G0 hG0 d hd
        subst hd
        rcases List.mem_or_eq_of_mem_set hG0 with h0 | h0
        · exact hn _ h0 d rfl
        · rw [← h0] at hs
          obtain ⟨_, h1, _⟩ := crvNew_from X c hs
          simp only [GoMap.has, hv, Option.isSome_some, reduceCtorEq] at h1
    · refine ih _ (by rw [h7]; exact hv) ?_
      rcases h with h | ⟨G, h, hc⟩ <;> rw [h]
      · exact hn
      · intro G0 hG0 d hd
        subst hd
        rw [List.mem_append, List.mem_singleton] at hG0
        rcases hG0 with h0 | h0
        · exact hn _ h0 d rfl
        · subst h0
          rcases hc with ⟨b, _, h⟩ | ⟨_, _, _, _, _, h⟩ | ⟨_, _, _, _, h⟩ | ⟨_, _, _, _, h⟩ | ⟨_, h⟩ <;> cases h

/-- A timer that is about to store has found no vector, and there is still none. -/
theorem storing_none (key : Str) (h : List MonCEvent) (x : MonC)
    (h1 : ∀ a, a <+: h → OneTimer key (monCRun X c x a).gs)
    (hx : ∀ d, MonG.crvNew key d ∈ x.gs → x.m.crv.get key = none) :
    ∀ d, MonG.crvNew key d ∈ (monCRun X c x h).gs → (monCRun X c x h).m.crv.get key = none := by
  induction h generalizing x with
  | nil => exact hx
  | cons e t ih =>
    rw [monCRun_cons]
    refine ih _ (fun a ha => by have := h1 (e :: a) (List.cons_prefix_cons.2 ⟨rfl, ha⟩); rwa [monCRun_cons] at this) ?_
    have hone := h1 [] List.nil_prefix
    change OneTimer key x.gs at hone
    have hone' := h1 [e] (List.cons_prefix_cons.2 ⟨rfl, List.nil_prefix⟩)
    change OneTimer key (monCStep X c x e).gs at hone'
    intro d hd
    rcases monCStep_cases X c x e with ⟨i, clk, G, G', m', rfl, _, hi, hs, h⟩ | ⟨_, _, _, _, _, _, h7, _, _, _, h⟩
    · rw [h] at hd ⊢
      simp only at hd ⊢
      rcases List.mem_or_eq_of_mem_set hd with h0 | h0
      · have hnone := hx d h0
        rcases (gStep_eff X c hs).crv with h2 | ⟨k, b, rfl, h2⟩
        · rw [h2]; exact hnone
        · by_cases hk : key = k
          · subst hk
            obtain ⟨j, hj⟩ := List.getElem?_of_mem hd
            by_cases hij : i = j
            · subst hij
              rw [mon_set_get hi] at hj
              simp only [gStep, Option.some.injEq, Prod.mk.injEq] at hs
              rw [← hs.2] at hj
              cases hj
            · rw [List.getElem?_set_ne hij] at hj
              exact absurd (hone i j b d (.inr hi) (.inr hj)) hij
          · rw [h2, GoMap.get_set_ne _ _ hk]; exact hnone
      · rw [← h0] at hs
        obtain ⟨_, h2, rfl⟩ := crvNew_from X c hs
        cases hg : x.m.crv.get key with
        | none => rfl
        | some v => simp only [GoMap.has, hg, Option.isSome_some, reduceCtorEq] at h2
    · rw [h7]
      rcases h with h | ⟨G, h, hc⟩ <;> rw [h] at hd
      · exact hx d hd
      · rw [List.mem_append, List.mem_singleton] at hd
        rcases hd with h0 | h0
        · exact hx d h0
        · subst h0
          rcases hc with ⟨b, _, h⟩ | ⟨_, _, _, _, _, h⟩ | ⟨_, _, _, _, h⟩ | ⟨_, _, _, _, h⟩ | ⟨_, h⟩ <;> cases h

/-- C139 for monitors whose timers of one CA do not overlap: once a vector is on file it stays, so no revocation it has disappears.
Missing for the full property: timers that overlap. -/
theorem C139_apart_partial (key : Str) (v : BitSet) (h1 h2 : List MonCEvent)
    (hone : ∀ a, a <+: h1 → OneTimer key (monCRun X c .init a).gs)
    (hv : (monCRun X c .init h1).m.crv.get key = some v) :
    (monCRun X c .init (h1 ++ h2)).m.crv.get key = some v := by
  rw [monCRun_append]
  refine (C139_settled_partial X c key v h2 _ hv ?_).1
  intro G hG d hd
  subst hd
  have := storing_none X c key h1 .init hone (fun d hd => by cases hd) d hG
  rw [hv] at this
  cases this

/-! ### C140: accusations -/

/-- The type of the statements of an entity. -/
def stmtType : EntityKind → GType
  | .logger => .STH_INIT
  | .ca => .REV_INIT

/-- C140 fails: if the statement of the entity arrives after the timer has looked for it, and a proof of misbehaviour after it has
looked for one, the accusation goes out although the monitor has both. -/
theorem C140_violated_meanwhile (clk : Clock) (x : MonC) (hd : x.dead = false) (e : Str) (k : EntityKind) (rest : List (Str × EntityKind))
    (hw : x.m.waits = (e, k) :: rest) (stmt proof : GossipObj) (hs : stmt.getID = ⟨clk.period, stmtType k, e⟩)
    (hp : proof.getID = ⟨clk.period, .ACC_FULL, e⟩) (h1 : x.m.temp.get stmt.getID = none)
    (h2 : x.m.accusationPom.get proof.getID = none) (h3 : x.m.conflictPom.get ⟨go!"0", .CON_INIT, e⟩ = none) :
    ∃ before, (monCRun X c x before).m.sent = x.m.sent ∧ (monCRun X c x before).m.temp.get stmt.getID = some stmt ∧
      (monCRun X c x before).m.accusationPom.get proof.getID = some proof ∧
      (monCRun X c x (before ++ [.run x.gs.length clk])).m.sent = x.m.sent ++ [accusation c clk e] := by
  obtain ⟨m, l, dd⟩ := x
  cases hd
  simp only at hw h1 h2 h3 ⊢
  have hst : stmt.type = stmtType k := congrArg GossipID.type hs
  have hpt : proof.type = .ACC_FULL := congrArg GossipID.type hp
  let m1 : MonState := { m with waits := rest }
  let m2 : MonState := { m1 with temp := m1.temp.set stmt.getID stmt }
  let m3 : MonState := { m2 with accusationPom := m2.accusationPom.set proof.getID proof,
                                 accusationDelta := m2.accusationDelta.set proof.getID proof }
  have e1 : monCStep X c ⟨m, l, false⟩ (.wait 0) = ⟨m1, l ++ [.waiting e k], false⟩ := by
    unfold monCStep; simp [hw, m1]
  have e2 : gStep X c clk m1 (.waiting e k) = some (m1, .silent e) := by
    rw [hs] at h1
    cases k <;> simp only [stmtType] at h1 <;> simp [gStep, m1, GoMap.has, h1]
  have hdup : isDuplicate m1 stmt = false := by
    simp only [isDuplicate, decide_eq_false_iff_not]
    intro h
    have : Mon.getObject m1 stmt.getID = .zero := by
      cases k <;> simp only [stmtType] at hst hs <;>
        simp only [Mon.getObject, hs] <;> rw [hs] at h1 <;> simp [m1, h1]
    rw [this] at h
    rw [← h] at hst
    cases k <;> cases hst
  have e3 : handleGossip X c m1 (some stmt) = m2 := by
    cases k <;> simp only [stmtType] at hst <;> simp [handleGossip, hdup, hst, storeObject, m2]
  have hpom : checkEntityPom m2 clk e = false := by
    rw [hp] at h2
    simp [checkEntityPom, m2, m1, GoMap.has, h2, h3]
  have hdup' : isDuplicate m2 proof = false := by
    simp only [isDuplicate, decide_eq_false_iff_not]
    intro h
    have : Mon.getObject m2 proof.getID = .zero := by
      simp only [Mon.getObject, hp]; rw [hp] at h2; simp [m2, m1, h2]
    rw [this] at h
    rw [← h] at hpt
    cases hpt
  have e4 : handleGossip X c m2 (some proof) = m3 := by
    simp [handleGossip, hdup', hpt, processValid, storeObject, m3]
  have p1 := post_alone X c clk m1 (l ++ [.silent e]) (some stmt)
  have p2 := post_alone X c clk m2 (l ++ [.accusing e, .done]) (some proof)
  rw [e3] at p1
  rw [e4] at p2
  simp only [List.length_append, List.length_cons, List.length_nil, Nat.zero_add, Nat.reduceAdd, List.append_assoc, List.cons_append,
    List.nil_append] at p1 p2
  let before : List MonCEvent := [.wait 0, .run l.length clk] ++ (.gossip (some stmt) :: aloneM clk (l.length + 1) 3) ++
    [.run l.length clk, .run l.length clk] ++ (.gossip (some proof) :: aloneM clk (l.length + 2) 3)
  have hb : monCRun X c ⟨m, l, false⟩ before = ⟨m3, l ++ [.accusing e, .done, .done], false⟩ := by
    have q1 : monCRun X c ⟨m, l, false⟩ [.wait 0, .run l.length clk] = ⟨m1, l ++ [.silent e], false⟩ := by
      rw [monCRun_cons, e1, monCRun_cons, run_mid X c e2]; rfl
    have q2 : monCRun X c ⟨m2, l ++ [.silent e, .done], false⟩ [.run l.length clk, .run l.length clk] =
        ⟨m2, l ++ [.accusing e, .done], false⟩ := by
      rw [monCRun_cons, run_mid X c (m' := m2) (G' := .accuse e) (by simp [gStep, hpom]), monCRun_cons,
        run_mid X c (m' := m2) (G' := .accusing e) (by simp [gStep, hpom])]; rfl
    simp only [before]
    rw [monCRun_append, monCRun_append, monCRun_append, q1, p1, q2, p2]
  refine ⟨before, ?_, ?_, ?_, ?_⟩
  · rw [hb]
  · rw [hb]; exact GoMap.get_set_self _ _ _
  · rw [hb]; exact GoMap.get_set_self _ _ _
  · rw [monCRun_append, hb, monCRun_cons, run_mid X c (m' := send m3 (accusation c clk e)) (G' := .done) rfl]
    rfl

/-- During `h` a step at clock `clk` was taken in a state with `P`. -/
def Once (x : MonC) (h : List MonCEvent) (P : Clock → MonState → Prop) : Prop :=
  ∃ a i clk, a ++ [.run i clk] <+: h ∧ P clk (monCRun X c x a).m

/-- No statement of the entity for the period the clock shows. -/
def NoStmt (e : Str) (k : EntityKind) (clk : Clock) (s : MonState) : Prop := s.temp.get ⟨clk.period, stmtType k, e⟩ = none

/-- No proof against the entity: none of an accusation for the period the clock shows, no conflict proof filed under "0". -/
def NoProof (e : Str) (clk : Clock) (s : MonState) : Prop :=
  s.accusationPom.get ⟨clk.period, .ACC_FULL, e⟩ = none ∧ s.conflictPom.get ⟨go!"0", .CON_INIT, e⟩ = none

theorem once_mono {x : MonC} {h h' : List MonCEvent} {P : Clock → MonState → Prop} (hh : h <+: h') (ho : Once X c x h P) :
    Once X c x h' P := by
  obtain ⟨a, i, clk, h1, h2⟩ := ho
  exact ⟨a, i, clk, h1.trans hh, h2⟩

/-- What the way to an accusation has looked at. -/
def Looked (x : MonC) (h : List MonCEvent) (e : Str) : Prop :=
  (∃ k, Once X c x h (NoStmt e k)) ∧ Once X c x h (NoProof e)

structure AccInv (x : MonC) (h : List MonCEvent) : Prop where
  silent : ∀ e, MonG.silent e ∈ (monCRun X c x h).gs → ∃ k, Once X c x h (NoStmt e k)
  accuse : ∀ e, MonG.accuse e ∈ (monCRun X c x h).gs → Looked X c x h e
  accusing : ∀ e, MonG.accusing e ∈ (monCRun X c x h).gs → Looked X c x h e
  sent : ∀ g ∈ (monCRun X c x h).m.sent, g.type = .ACC_INIT → g ∈ x.m.sent ∨
    ∃ a i clk e, a ++ [.run i clk] <+: h ∧ g = accusation c clk e ∧ Looked X c x a e

theorem none_of_has {K V : Type} [DecidableEq K] {m : GoMap K V} {k : K} (h : ¬ m.has k = true) : m.get k = none := by
  cases hg : m.get k with
  | none => rfl
  | some v => exact absurd (by simp [GoMap.has, hg]) h

/-- Where the goroutines on the way to an accusation come from. -/
theorem way_from {clk : Clock} {s s' : MonState} {G G' : MonG} (h : gStep X c clk s G = some (s', G')) (e : Str) :
    (G' = .silent e → ∃ k, G = .waiting e k ∧ NoStmt e k clk s) ∧
    (G' = .accuse e → G = .silent e ∧ NoProof e clk s) ∧
    (G' = .accusing e → G = .accuse e ∧ NoProof e clk s) := by
  have hproc : ∀ g, processThen c s g = (s', G') → G' ≠ .silent e ∧ G' ≠ .accuse e ∧ G' ≠ .accusing e := by
    intro g hg
    have := congrArg Prod.snd hg
    simp only [processThen] at this
    split at this <;> subst this <;> exact ⟨nofun, nofun, nofun⟩
  have fin : (G' ≠ .silent e ∧ G' ≠ .accuse e ∧ G' ≠ .accusing e) → (G' = .silent e → ∃ k, G = .waiting e k ∧ NoStmt e k clk s) ∧
    (G' = .accuse e → G = .silent e ∧ NoProof e clk s) ∧ (G' = .accusing e → G = .accuse e ∧ NoProof e clk s) :=
    fun ⟨a, b, d⟩ => ⟨fun h => absurd h a, fun h => absurd h b, fun h => absurd h d⟩
  have pom : ∀ e', ¬ checkEntityPom s clk e' = true → NoProof e' clk s := by
    intro e' hh
    simp only [checkEntityPom, Bool.or_eq_true, not_or] at hh
    exact ⟨none_of_has hh.1, none_of_has hh.2⟩
  cases G with
  | check g =>
    simp only [gStep] at h
    split at h
    · cases h; exact fin ⟨nofun, nofun, nofun⟩
    · split at h
      · cases h; exact fin ⟨nofun, nofun, nofun⟩
      · cases h; exact fin ⟨nofun, nofun, nofun⟩
      · exact fin (hproc g (Option.some.inj h))
  | put g =>
    simp only [gStep, Option.some.injEq, Prod.mk.injEq] at h
    obtain ⟨_, h⟩ := h
    split at h <;> subst h <;> exact fin ⟨nofun, nofun, nofun⟩
  | putNew g => cases h; exact fin ⟨nofun, nofun, nofun⟩
  | answered u k f =>
    simp only [gStep] at h
    cases f with
    | failed => cases h; exact fin ⟨nofun, nofun, nofun⟩
    | obj g =>
      simp only at h
      split at h
      · cases h
      · cases h; exact fin ⟨nofun, nofun, nofun⟩
      · split at h
        · exact fin (hproc g (Option.some.inj h))
        · split at h
          · cases h
          · cases h; exact fin ⟨nofun, nofun, nofun⟩
          · exact fin (hproc g (Option.some.inj h))
  | waiting u k =>
    refine ⟨fun hs => ?_, fun hs => ?_, fun hs => ?_⟩ <;> subst hs <;> simp only [gStep, Option.some.injEq, Prod.mk.injEq] at h <;>
      obtain ⟨_, h⟩ := h <;> cases k <;> simp only at h <;> split at h <;> cases h
    · rename_i hh; exact ⟨.logger, rfl, none_of_has hh⟩
    · rename_i hh; exact ⟨.ca, rfl, none_of_has hh⟩
  | silent u =>
    refine ⟨fun hs => ?_, fun hs => ?_, fun hs => ?_⟩ <;> subst hs <;> simp only [gStep, Option.some.injEq, Prod.mk.injEq] at h <;>
      obtain ⟨_, h⟩ := h <;> split at h <;> cases h
    rename_i hh; exact ⟨rfl, pom _ hh⟩
  | accuse u =>
    refine ⟨fun hs => ?_, fun hs => ?_, fun hs => ?_⟩ <;> subst hs <;> simp only [gStep, Option.some.injEq, Prod.mk.injEq] at h <;>
      obtain ⟨_, h⟩ := h <;> split at h <;> cases h
    rename_i hh; exact ⟨rfl, pom _ hh⟩
  | accusing u => cases h; exact fin ⟨nofun, nofun, nofun⟩
  | crvLook key d =>
    simp only [gStep, Option.some.injEq, Prod.mk.injEq] at h
    obtain ⟨_, h⟩ := h
    split at h <;> subst h <;> exact fin ⟨nofun, nofun, nofun⟩
  | crvNew key d => cases h; exact fin ⟨nofun, nofun, nofun⟩
  | ending a => cases a <;> cases h <;> exact fin ⟨nofun, nofun, nofun⟩
  | done => cases h; exact fin ⟨nofun, nofun, nofun⟩

theorem accInv_snoc (x : MonC) (h : List MonCEvent) (e : MonCEvent) (hI : AccInv X c x h) : AccInv X c x (h ++ [e]) := by
  have hpre : h <+: h ++ [e] := List.prefix_append _ _
  have hrun : monCRun X c x (h ++ [e]) = monCStep X c (monCRun X c x h) e := by rw [monCRun_append]; rfl
  have lm : ∀ {u}, Looked X c x h u → Looked X c x (h ++ [e]) u := fun ⟨⟨k, h1⟩, h2⟩ =>
    ⟨⟨k, once_mono X c hpre h1⟩, once_mono X c hpre h2⟩
  have sm : ∀ {u}, (∃ k, Once X c x h (NoStmt u k)) → ∃ k, Once X c x (h ++ [e]) (NoStmt u k) := fun ⟨k, h1⟩ =>
    ⟨k, once_mono X c hpre h1⟩
  have old : ∀ g ∈ (monCRun X c x h).m.sent, g.type = .ACC_INIT → g ∈ x.m.sent ∨
      ∃ a i clk u, a ++ [.run i clk] <+: h ++ [e] ∧ g = accusation c clk u ∧ Looked X c x a u := by
    intro g hg ht
    rcases hI.sent g hg ht with h0 | ⟨a, i, clk, u, h1, h2⟩
    · exact .inl h0
    · exact .inr ⟨a, i, clk, u, h1.trans hpre, h2⟩
  rcases monCStep_cases X c (monCRun X c x h) e with ⟨i, clk, G, G', m', rfl, _, hi, hs, hst⟩ | ⟨_, _, _, _, _, _, _, h8, _, _, hst⟩
  · have now : ∀ {P : Clock → MonState → Prop}, P clk (monCRun X c x h).m → Once X c x (h ++ [.run i clk]) P :=
      fun hP => ⟨h, i, clk, List.prefix_refl _, hP⟩
    have hG := List.mem_of_getElem? hi
    refine ⟨?_, ?_, ?_, ?_⟩
    · intro u hu
      rw [hrun, hst] at hu
      rcases List.mem_or_eq_of_mem_set hu with h0 | h0
      · exact sm (hI.silent u h0)
      · obtain ⟨k, _, h1⟩ := (way_from X c hs u).1 h0.symm
        exact ⟨k, now h1⟩
    · intro u hu
      rw [hrun, hst] at hu
      rcases List.mem_or_eq_of_mem_set hu with h0 | h0
      · exact lm (hI.accuse u h0)
      · obtain ⟨rfl, h1⟩ := (way_from X c hs u).2.1 h0.symm
        exact ⟨sm (hI.silent u hG), now h1⟩
    · intro u hu
      rw [hrun, hst] at hu
      rcases List.mem_or_eq_of_mem_set hu with h0 | h0
      · exact lm (hI.accusing u h0)
      · obtain ⟨rfl, h1⟩ := (way_from X c hs u).2.2 h0.symm
        exact lm (hI.accuse u hG)
    · intro g hg ht
      rw [hrun, hst] at hg
      simp only at hg
      rcases (gStep_eff X c hs).sent with h1 | ⟨o, _, h0, h1⟩ | ⟨u, rfl, h1⟩ <;> rw [h1] at hg
      · exact old g hg ht
      · rw [List.mem_append, List.mem_singleton] at hg
        rcases hg with hg | rfl
        · exact old g hg ht
        · rw [ht] at h0; rcases h0 with h0 | h0 <;> cases h0
      · rw [List.mem_append, List.mem_singleton] at hg
        rcases hg with hg | rfl
        · exact old g hg ht
        · exact .inr ⟨h, i, clk, u, List.prefix_refl _, rfl, hI.accusing u hG⟩
  · have hgs : ∀ G, (∃ u, G = .silent u ∨ G = .accuse u ∨ G = .accusing u) → G ∈ (monCStep X c (monCRun X c x h) e).gs →
        G ∈ (monCRun X c x h).gs := by
      rintro G ⟨u, hu⟩ hG
      rcases hst with hst | ⟨G1, hst, hc⟩ <;> rw [hst] at hG
      · exact hG
      · rw [List.mem_append, List.mem_singleton] at hG
        rcases hG with hG | rfl
        · exact hG
        · rcases hc with ⟨b, _, h⟩ | ⟨_, _, _, _, _, h⟩ | ⟨_, _, _, _, h⟩ | ⟨_, _, _, _, h⟩ | ⟨_, h⟩ <;> subst h <;>
            rcases hu with hu | hu | hu <;> cases hu
    refine ⟨?_, ?_, ?_, ?_⟩
    · intro u hu; rw [hrun] at hu; exact sm (hI.silent u (hgs _ ⟨u, .inl rfl⟩ hu))
    · intro u hu; rw [hrun] at hu; exact lm (hI.accuse u (hgs _ ⟨u, .inr (.inl rfl)⟩ hu))
    · intro u hu; rw [hrun] at hu; exact lm (hI.accusing u (hgs _ ⟨u, .inr (.inr rfl)⟩ hu))
    · intro g hg ht; rw [hrun, h8] at hg; exact old g hg ht

theorem accInv_run (h : List MonCEvent) : AccInv X c .init h := by
  have key : ∀ (t a : List MonCEvent), AccInv X c .init a → AccInv X c .init (a ++ t) := by
    intro t
    induction t with
    | nil => intro a ha; rw [List.append_nil]; exact ha
    | cons e t ih =>
      intro a ha
      rw [show a ++ e :: t = (a ++ [e]) ++ t by simp]
      exact ih _ (accInv_snoc X c .init a e ha)
  exact key h [] ⟨(fun e he => by cases he), (fun e he => by cases he), (fun e he => by cases he), (fun g hg => by cases hg)⟩

/-- C140: in every schedule each accusation a monitor sends names an entity of which it had, at some moment before, no statement for the
period its clock then showed, and against which it had, at some moment before, no proof. Missing for the full property: that this
is still so when it sends. -/
theorem C140_looked_before_partial (h : List MonCEvent) (g : GossipObj) (hg : g ∈ (monCRun X c .init h).m.sent)
    (ht : g.type = .ACC_INIT) :
    ∃ a i clk, a ++ [.run i clk] <+: h ∧ g.period = clk.period ∧ g.signer = c.crypto.selfID ∧
      (∃ k, Once X c .init a (NoStmt g.payload.p0 k)) ∧ Once X c .init a (NoProof g.payload.p0) := by
  rcases (accInv_run X c h).sent g hg ht with h0 | ⟨a, i, clk, e, h1, rfl, h2, h3⟩
  · cases h0
  · exact ⟨a, i, clk, h1, rfl, rfl, h2, h3⟩

namespace Ref

/-- C138: the tree head of L1 is posted, the period ends, and a revocation of C1 is posted meanwhile. -/
def sthThenEnd : List MonCEvent :=
  [.gossip (some sthFull05)] ++ aloneM clk 0 3 ++ [.finish] ++ aloneM clk 1 7 ++
    [.gossip (some (revFull (go!"05") ((BitSet.new 10).set 3)))] ++ aloneM clk 2 3 ++ aloneM clk 1 7

/-- C138, C41: both are listed. -/
example : ((monCRun xlib monConf .init sthThenEnd).m.files.values.map fun u => (u.sths == [sthFull05], u.revs.length, u.period)) =
    [(true, 1, go!"05")] := by decide +kernel

/-- C138: the hypotheses of `C138_held_partial` at the start of the end of the period, with 12 of the steps that follow. -/
example : let x := monCRun xlib monConf .init ([.gossip (some sthFull05)] ++ aloneM clk 0 3 ++ [.finish])
    let y := monCRun xlib monConf x (aloneM clk 1 12)
    x.m.sthFull.get sthFull05.getID = some sthFull05 ∧ y.dead = false ∧ y.m.conflictPom.has ⟨go!"0", .CON_INIT, sthFull05.payload.p0⟩ = false ∧
    (match (x.gs[1]? : Option MonG), (y.gs[1]? : Option MonG) with
     | some (MonG.ending .cleanSth), some (MonG.ending (.save u)) => u.sths == [sthFull05]
     | _, _ => false) = true := by decide +kernel

/-- C138: the conclusion of `C138_violated_other_period` for a monitor that was just started: the update of minute 5 lists the tree head
of minute 5 when the clock shows minute 6. -/
example : ∃ h u, (monCRun xlib monConf .init h).m.files.get (periodIO monConf clk06) = some u ∧ u.period = clk06.period ∧
    ∃ o ∈ u.sths, o.period ≠ u.period :=
  C138_violated_other_period xlib monConf clk06 .init rfl sthFull05 rfl (by decide)

/-- C138: a conflict proof filed under "0" is on file. -/
example : let x := monCRun xlib monConf .init ([.gossip (some (conL1 (go!"0")))] ++ aloneM clk 0 3)
    x.dead = false ∧ x.m.conflictPom.has ⟨go!"0", .CON_INIT, sthFull05.payload.p0⟩ = true ∧ sthFull05.period = clk.period := by
  decide +kernel

/-- C139: two revocations of C1 with different bits have arrived and no vector is on file. -/
example : let d := (BitSet.new 10).set 3
    let d' := (BitSet.new 10).set 4
    let x := monCRun xlib monConf .init ([.gossip (some (revFull (go!"05") d))] ++ aloneM clk 0 3 ++
      [.gossip (some (revFull (go!"06") d'))] ++ aloneM clk 1 3)
    x.dead = false ∧ x.m.crvTimers = [(go!"C1", d), (go!"C1", d')] ∧ x.m.crv.get (go!"C1") = none ∧ d.test 3 = true ∧ d'.test 3 = false := by
  decide +kernel

/-- C139: one after the other, the vector of the first stays. -/
example : ((monCRun xlib monConf .init ([.gossip (some (revFull (go!"05") ((BitSet.new 10).set 3)))] ++ aloneM clk 0 3 ++
      [.gossip (some (revFull (go!"06") ((BitSet.new 10).set 4)))] ++ aloneM clk 1 3 ++ [.crv 0] ++ aloneM clk 2 2 ++ [.crv 0] ++
      aloneM clk 3 2)).m.crv.get (go!"C1")).map (fun b => (b.test 3, b.test 4)) = some (true, false) := by decide +kernel

/-- C140: the hypotheses of `C140_violated_meanwhile`: the query of L1 has failed. -/
example : let x := monCRun xlib monConf .init ([.query clk, .answer 0 .failed] ++ aloneM clk 0 1)
    x.dead = false ∧ x.m.waits = [(go!"L1", .logger)] ∧ x.m.temp.get sth05.getID = none ∧
    sth05.getID = ⟨clk.period, stmtType .logger, go!"L1"⟩ ∧
    ({ sth05 with type := .ACC_FULL } : GossipObj).getID = ⟨clk.period, .ACC_FULL, go!"L1"⟩ := by decide +kernel

/-- C140: L1 is silent and is accused. -/
example : ((monCRun xlib monConf .init ([.query clk, .answer 0 .failed] ++ aloneM clk 0 1 ++ [.wait 0] ++ aloneM clk 1 4)).m.sent.map
    fun g => (g.type, g.payload.p0)) = [(.ACC_INIT, go!"L1")] := by decide +kernel

end Ref
end CTng
