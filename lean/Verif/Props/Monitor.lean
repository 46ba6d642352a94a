import Verif.Model.Monitor
import Verif.Props.Logger
/- C39-C48: monitors. -/
set_option autoImplicit false

namespace CTng
open Mon
variable {L : Lib} (X : XLib) (c : MonConf L)

/-! ### Steps -/

theorem monRun_append (s : MonState) (a b : List MonEvent) :
    monRun X c s (a ++ b) = (monRun X c s a).bind fun s' => monRun X c s' b := by
  induction a generalizing s with
  | nil => rfl
  | cons e t ih =>
    simp only [List.cons_append, monRun]
    cases monStep X c s e with
    | none => rfl
    | some s1 => exact ih s1

theorem monRun_snoc {s s' : MonState} {a : List MonEvent} {e : MonEvent} :
    monRun X c s (a ++ [e]) = some s' ↔ ∃ s1, monRun X c s a = some s1 ∧ monStep X c s1 e = some s' := by
  rw [monRun_append, Option.bind_eq_some_iff]
  constructor
  · rintro ⟨s1, h1, h2⟩
    refine ⟨s1, h1, ?_⟩
    simp only [monRun] at h2
    cases h : monStep X c s1 e with
    | none => rw [h] at h2; exact absurd h2 (by simp)
    | some x => rw [h] at h2; exact h2
  · rintro ⟨s1, h1, h2⟩
    exact ⟨s1, h1, by simp only [monRun, h2]⟩

theorem monRun_induct (P : MonState → Prop) (hs : ∀ s e s', P s → monStep X c s e = some s' → P s')
    (evs : List MonEvent) {s s' : MonState} (h : monRun X c s evs = some s') (h0 : P s) : P s' := by
  induction evs generalizing s with
  | nil => simp only [monRun, Option.some.injEq] at h; exact h ▸ h0
  | cons e t ih =>
    simp only [monRun] at h
    cases he : monStep X c s e with
    | none => rw [he] at h; exact absurd h (by simp)
    | some s1 => rw [he] at h; exact ih h (hs s e s1 h0 he)

/-- The types `Process_valid_object` stores. -/
def keptType (t : GType) : Bool :=
  match t with
  | .ACC_FULL => true
  | .CON_INIT => true
  | .STH_FULL => true
  | .REV_FULL => true
  | _ => false

/-- The event brings the object `g` to the monitor. -/
def Delivers (e : MonEvent) (g : GossipObj) : Prop := e = .gossip (some g) ∨ ∃ i, e = .answer i (.obj g)

/-- `s` with other timers. -/
def reTime (s : MonState) (q w : List (Str × EntityKind)) (t : List (Str × BitSet)) : MonState :=
  { s with queries := q, waits := w, crvTimers := t }

theorem processValid_kept (s : MonState) (g : GossipObj) (h : keptType g.type = true) :
    processValid X c s g = storeObject X s g := by
  unfold processValid
  cases ht : g.type <;> simp_all [keptType]

theorem processValid_other (s : MonState) (g : GossipObj) (h : keptType g.type = false) :
    processValid X c s g = s ∨ (processValid X c s g = send s g ∧
      ((g.type = .STH_INIT ∧ g.signer ∈ c.allLoggers) ∨ (g.type = .REV_INIT ∧ g.signer ∈ c.allCAs))) := by
  unfold processValid
  by_cases h1 : g.signer ∈ c.allLoggers <;> by_cases h2 : g.signer ∈ c.allCAs <;> cases ht : g.type <;>
    simp_all [keptType, isLogger, isAuthority]

theorem zero_dup (s : MonState) : isDuplicate s .zero = true := by
  simp [isDuplicate, Mon.getObject, GossipObj.getID, GossipObj.zero]

theorem handleGossip_none (s : MonState) : handleGossip X c s none = s := by
  simp [handleGossip, zero_dup]

/-- The type of statement expected of a kind of entity. -/
def EntityKind.initType : EntityKind → GType
  | .logger => .STH_INIT
  | .ca => .REV_INIT

/-- The conditions under which the monitor sends `g` at event `e` in state `s`. -/
inductive SendsWhy (s : MonState) (e : MonEvent) (g : GossipObj) : Prop
  | forwarded (i : Nat) (u : Str) (k : EntityKind) (he : e = .answer i (.obj g)) (hq : s.queries[i]? = some (u, k))
      (hv : g.verify c.crypto = .ok)
      (hk : (g.type = .STH_INIT ∧ g.signer ∈ c.allLoggers) ∨ (g.type = .REV_INIT ∧ g.signer ∈ c.allCAs))
  | accused (i : Nat) (clk : Clock) (u : Str) (k : EntityKind) (he : e = .wait i clk) (hw : s.waits[i]? = some (u, k))
      (hg : g = accusation c clk u) (hp : s.accusationPom.get ⟨clk.period, .ACC_FULL, u⟩ = none)
      (hc : s.conflictPom.get ⟨go!"0", .CON_INIT, u⟩ = none)
      (ht : s.temp.get ⟨clk.period, k.initType, u⟩ = none)

theorem has_false {K V : Type} [DecidableEq K] (m : GoMap K V) (k : K) : m.has k = false ↔ m.get k = none := by
  simp [GoMap.has, Option.isSome_iff_ne_none, Bool.eq_false_iff]

/-- What one event can do. -/
theorem mon_cases {s s' : MonState} {e : MonEvent} (h : monStep X c s e = some s') :
    (∃ clk, e = .finish clk ∧ s' = endPeriod X c clk s) ∨
    (∃ q w t, s' = reTime s q w t) ∨
    (∃ q w g, (e = .gossip (some g) ∧ (keptType g.type = true ∨ g.type = .STH_INIT ∨ g.type = .REV_INIT) ∨
        (∃ i, e = .answer i (.obj g)) ∧ keptType g.type = true ∧ g.verify c.crypto = .ok) ∧
      s' = storeObject X (reTime s q w s.crvTimers) g) ∨
    (∃ q w g, SendsWhy c s e g ∧ s' = send (reTime s q w s.crvTimers) g) ∨
    (∃ i k d, e = .crv i ∧ s.crvTimers[i]? = some (k, d) ∧
      s' = fireCRV (reTime s s.queries s.waits (s.crvTimers.eraseIdx i)) k d) := by
  cases e with
  | gossip b =>
    cases b with
    | none =>
      simp only [monStep, handleGossip_none, Option.some.injEq] at h
      exact .inr (.inl ⟨s.queries, s.waits, s.crvTimers, h.symm⟩)
    | some g =>
      simp only [monStep, Option.some.injEq] at h
      by_cases hd : isDuplicate s g = true
      · refine .inr (.inl ⟨s.queries, s.waits, s.crvTimers, ?_⟩)
        simp only [handleGossip, Option.getD_some, hd, if_true] at h
        exact h.symm
      · by_cases hi : g.type = .STH_INIT ∨ g.type = .REV_INIT
        · refine .inr (.inr (.inl ⟨s.queries, s.waits, g, .inl ⟨rfl, .inr hi⟩, ?_⟩))
          rw [← h]
          rcases hi with hi | hi <;> simp [handleGossip, hd, hi, reTime]
        · have hh : handleGossip X c s (some g) = processValid X c s g := by
            cases ht : g.type <;> simp_all [handleGossip]
          rw [hh] at h
          by_cases hk : keptType g.type = true
          · rw [processValid_kept X c s g hk] at h
            exact .inr (.inr (.inl ⟨s.queries, s.waits, g, .inl ⟨rfl, .inl hk⟩, h.symm⟩))
          · rcases processValid_other X c s g (by simpa using hk) with h1 | ⟨_, h2⟩
            · exact .inr (.inl ⟨s.queries, s.waits, s.crvTimers, by rw [← h, h1]; rfl⟩)
            · exact absurd (h2.imp And.left And.left) hi
  | query clk =>
    simp only [monStep, Option.some.injEq] at h
    exact .inr (.inl ⟨_, s.waits, s.crvTimers, h.symm⟩)
  | answer i f =>
    simp only [monStep] at h
    cases hq : s.queries[i]? with
    | none =>
      rw [hq] at h
      exact .inr (.inl ⟨s.queries, s.waits, s.crvTimers, (Option.some.inj h).symm⟩)
    | some uk =>
      obtain ⟨u, k⟩ := uk
      rw [hq] at h
      cases f with
      | failed => exact .inr (.inl ⟨_, _, s.crvTimers, (Option.some.inj h).symm⟩)
      | obj g =>
        have key : s' = processValid X c { s with queries := s.queries.eraseIdx i } g ∧ g.verify c.crypto = .ok ∨
            ∃ w, s' = reTime s (s.queries.eraseIdx i) w s.crvTimers := by
          simp only [answerQuery] at h
          cases hv : g.verify c.crypto with
          | panic => rw [hv] at h; exact absurd h (by simp)
          | err x => rw [hv] at h; exact .inr ⟨_, (Option.some.inj h).symm⟩
          | ok =>
            rw [hv] at h
            cases k with
            | logger => exact .inl ⟨(Option.some.inj h).symm, rfl⟩
            | ca =>
              simp only at h
              cases hr : verifySRH X c.crypto s.crv (getSRHandDCRV X g).1 (getSRHandDCRV X g).2 g.payload.p0 g.period with
              | panic => rw [hr] at h; exact absurd h (by simp)
              | err x => rw [hr] at h; exact .inr ⟨_, (Option.some.inj h).symm⟩
              | ok => rw [hr] at h; exact .inl ⟨(Option.some.inj h).symm, rfl⟩
        rcases key with ⟨key, hv⟩ | ⟨w, key⟩
        · by_cases hk : keptType g.type = true
          · rw [processValid_kept X c _ g hk] at key
            exact .inr (.inr (.inl ⟨_, s.waits, g, .inr ⟨⟨i, rfl⟩, hk, hv⟩, key⟩))
          · rcases processValid_other X c { s with queries := s.queries.eraseIdx i } g (by simpa using hk) with h1 | ⟨h1, h2⟩
            · exact .inr (.inl ⟨_, s.waits, s.crvTimers, by rw [key, h1]; rfl⟩)
            · exact .inr (.inr (.inr (.inl ⟨_, s.waits, g, .forwarded i u k rfl hq hv h2, by rw [key, h1]; rfl⟩)))
        · exact .inr (.inl ⟨_, w, s.crvTimers, key⟩)
  | wait i clk =>
    simp only [monStep] at h
    cases hw : s.waits[i]? with
    | none =>
      rw [hw] at h
      exact .inr (.inl ⟨s.queries, s.waits, s.crvTimers, (Option.some.inj h).symm⟩)
    | some uk =>
      obtain ⟨u, k⟩ := uk
      rw [hw] at h
      have h := Option.some.inj h
      by_cases hc : checkEntityPom s clk u = false ∧
          s.temp.get ⟨clk.period, k.initType, u⟩ = none
      · obtain ⟨hc1, hc2⟩ := hc
        have h2 : waitOver c clk { s with waits := s.waits.eraseIdx i } u k =
            send (reTime s s.queries (s.waits.eraseIdx i) s.crvTimers) (accusation c clk u) := by
          have hc1' : checkEntityPom { s with waits := s.waits.eraseIdx i } clk u = false := hc1
          cases k <;> simp only [EntityKind.initType] at hc2 <;> simp [waitOver, hc1', accuseEntity, reTime, has_false, hc2]
        rw [h2] at h
        simp only [checkEntityPom, Bool.or_eq_false_iff, has_false] at hc1
        exact .inr (.inr (.inr (.inl ⟨s.queries, _, _, .accused i clk u k rfl hw rfl hc1.1 hc1.2 hc2, h.symm⟩)))
      · refine .inr (.inl ⟨s.queries, s.waits.eraseIdx i, s.crvTimers, ?_⟩)
        rw [← h]
        unfold waitOver
        have hn : ¬ (checkEntityPom { s with waits := s.waits.eraseIdx i } clk u = false ∧
            s.temp.has ⟨clk.period, k.initType, u⟩ = false) := fun hh => hc ⟨hh.1, (has_false _ _).1 hh.2⟩
        cases k
        · exact if_neg hn
        · exact if_neg hn
  | crv i =>
    simp only [monStep] at h
    cases hw : s.crvTimers[i]? with
    | none =>
      rw [hw] at h
      exact .inr (.inl ⟨s.queries, s.waits, s.crvTimers, (Option.some.inj h).symm⟩)
    | some kd =>
      obtain ⟨k, d⟩ := kd
      rw [hw] at h
      exact .inr (.inr (.inr (.inr ⟨i, k, d, rfl, hw, (Option.some.inj h).symm⟩)))
  | finish clk =>
    simp only [monStep, Option.some.injEq] at h
    exact .inl ⟨clk, rfl, h.symm⟩


/-! ### C40: the storage -/

/-- The types the handler stores. -/
def storedType (t : GType) : Bool := keptType t || t = .STH_INIT || t = .REV_INIT

theorem getObject_store (s : MonState) (g : GossipObj) (h : storedType g.type = true) (id : GossipID) :
    Mon.getObject (storeObject X s g) id = if id = g.getID then g else Mon.getObject s id := by
  by_cases hid : id = g.getID
  · subst hid
    rw [if_pos rfl]
    have ht : g.getID.type = g.type := rfl
    unfold Mon.getObject storeObject
    rw [ht]
    cases hg : g.type <;> simp_all [storedType, keptType, GoMap.get_set_self]
  · rw [if_neg hid]
    unfold Mon.getObject storeObject
    cases hg : g.type <;> cases hi : id.type <;> simp_all [storedType, keptType, GoMap.get_set_ne]

/-- C40, for the six types the monitor handles: reading an id gives the object stored last under it, and storing affects
no other id. Missing for the full property: objects of other types, see the next theorem. -/
theorem C40_read_your_writes_partial (s : MonState) (g : GossipObj)
    (h : g.type ∈ [.STH_INIT, .REV_INIT, .CON_INIT, .ACC_FULL, .STH_FULL, .REV_FULL]) (id : GossipID) :
    Mon.getObject (storeObject X s g) id = if id = g.getID then g else Mon.getObject s id := by
  refine getObject_store X s g ?_ id
  simp only [List.mem_cons, List.not_mem_nil, or_false] at h
  rcases h with h | h | h | h | h | h <;> simp [storedType, keptType, h]

/-- C40 fails for the remaining types (accusations, fragments, unknown): `StoreObject` files them in the temporary
storage, where `GetObject` never looks. -/
theorem C40_violated_other_types (s : MonState) (g : GossipObj)
    (h : g.type ∈ [.ACC_INIT, .STH_FRAG, .REV_FRAG, .ACC_FRAG]) :
    Mon.getObject (storeObject X s g) g.getID = GossipObj.zero ∧ Mon.getObject (storeObject X s g) g.getID ≠ g := by
  have ht : g.getID.type = g.type := rfl
  have h0 : Mon.getObject (storeObject X s g) g.getID = GossipObj.zero := by
    unfold Mon.getObject
    rw [ht]
    simp only [List.mem_cons, List.not_mem_nil, or_false] at h
    rcases h with h | h | h | h <;> simp [h]
  refine ⟨h0, ?_⟩
  rw [h0]
  rintro rfl
  simp [GossipObj.zero] at h

theorem handleGossip_stored (s : MonState) (g : GossipObj) (h : storedType g.type = true) :
    Mon.getObject (handleGossip X c s (some g)) g.getID = g ∧
      (handleGossip X c s (some g) = s ∨ handleGossip X c s (some g) = storeObject X s g) := by
  by_cases hd : isDuplicate s g = true
  · have : handleGossip X c s (some g) = s := by simp [handleGossip, hd]
    rw [this]
    exact ⟨by simpa [isDuplicate] using hd, .inl rfl⟩
  · have : handleGossip X c s (some g) = storeObject X s g := by
      by_cases hi : g.type = .STH_INIT ∨ g.type = .REV_INIT
      · rcases hi with hi | hi <;> simp [handleGossip, hd, hi]
      · have hh : handleGossip X c s (some g) = processValid X c s g := by
          cases ht : g.type <;> simp_all [handleGossip]
        rw [hh, processValid_kept]
        cases ht : g.type <;> simp_all [storedType, keptType]
    rw [this]
    exact ⟨by rw [getObject_store X s g h, if_pos rfl], .inr rfl⟩

/-- C40. Delivering the same object a second time changes nothing, whatever it is. -/
theorem C40_second_delivery_ignored (s : MonState) (b : Option GossipObj) :
    handleGossip X c (handleGossip X c s b) b = handleGossip X c s b := by
  cases b with
  | none => rw [handleGossip_none, handleGossip_none]
  | some g =>
    by_cases h : storedType g.type = true
    · have h1 := (handleGossip_stored X c s g h).1
      generalize handleGossip X c s (some g) = s1 at h1
      simp [handleGossip, isDuplicate, h1]
    · have key : ∀ s : MonState, handleGossip X c s (some g) = s := by
        intro s
        by_cases hd : isDuplicate s g = true
        · simp [handleGossip, hd]
        · have hk : keptType g.type = false := by
            cases ht : g.type <;> simp_all [storedType, keptType]
          have hh : handleGossip X c s (some g) = processValid X c s g := by
            cases ht : g.type <;> simp_all [storedType, handleGossip]
          rcases processValid_other X c s g hk with h1 | ⟨_, h2⟩
          · rw [hh, h1]
          · rcases h2 with h2 | h2 <;> simp [storedType, h2.1] at h
      rw [key, key]

/-! ### C39: what is kept was verified -/

/-- C39 fails: whatever object of these types the gossiper's port receives is kept, without any check. -/
theorem C39_violated_no_check (s : MonState) (g : GossipObj)
    (h : g.type ∈ [.STH_INIT, .REV_INIT, .CON_INIT, .ACC_FULL, .STH_FULL, .REV_FULL]) :
    ∃ s', monStep X c s (.gossip (some g)) = some s' ∧ Mon.getObject s' g.getID = g := by
  refine ⟨_, rfl, (handleGossip_stored X c s g ?_).1⟩
  simp only [List.mem_cons, List.not_mem_nil, or_false] at h
  rcases h with h | h | h | h | h | h <;> simp [storedType, keptType, h]

/-- Every stored object is stored under its own id, in the store of its type, and satisfies `φ`. -/
structure StoresInv (φ : GossipObj → Prop) (s : MonState) : Prop where
  temp : ∀ k g, s.temp.get k = some g → k = g.getID ∧ φ g ∧ (g.type = .STH_INIT ∨ g.type = .REV_INIT)
  con : ∀ k g, s.conflictPom.get k = some g → k = g.getID ∧ φ g ∧ g.type = .CON_INIT
  conD : ∀ k g, s.conflictDelta.get k = some g → k = g.getID ∧ φ g ∧ g.type = .CON_INIT
  acc : ∀ k g, s.accusationPom.get k = some g → k = g.getID ∧ φ g ∧ g.type = .ACC_FULL
  accD : ∀ k g, s.accusationDelta.get k = some g → k = g.getID ∧ φ g ∧ g.type = .ACC_FULL
  sth : ∀ k g, s.sthFull.get k = some g → k = g.getID ∧ φ g ∧ g.type = .STH_FULL
  rev : ∀ k g, s.revFull.get k = some g → k = g.getID ∧ φ g ∧ g.type = .REV_FULL

theorem get_filter_some {K V : Type} [DecidableEq K] {m : GoMap K V} {p : K → V → Bool} {k : K} {v : V} :
    (m.filterKV p).get k = some v ↔ m.get k = some v ∧ p k v = true := by
  rw [GoMap.get_filterKV, Option.filter_eq_some_iff]

theorem get_set_cases {K V : Type} [DecidableEq K] {m : GoMap K V} {k k' : K} {v v' : V}
    (h : (m.set k v).get k' = some v') : (k' = k ∧ v' = v) ∨ m.get k' = some v' := by
  by_cases hk : k' = k
  · subst hk
    rw [GoMap.get_set_self] at h
    exact .inl ⟨rfl, (Option.some.inj h).symm⟩
  · rw [GoMap.get_set_ne _ _ hk] at h
    exact .inr h

theorem storesInv_init (φ : GossipObj → Prop) : StoresInv φ initMonitor := by
  constructor <;> intro k g h <;> simp [initMonitor, GoMap.get_empty] at h

theorem storesInv_store (φ : GossipObj → Prop) {s : MonState} (h : StoresInv φ s) (g : GossipObj) (hg : φ g)
    (ht : storedType g.type = true) : StoresInv φ (storeObject X s g) := by
  unfold storeObject
  cases hT : g.type <;> simp only [hT] at ht ⊢ <;> first | (simp [storedType, keptType] at ht; done) | skip
  all_goals
    constructor <;> intro k g' h' <;>
      first
      | exact h.temp k g' h' | exact h.con k g' h' | exact h.conD k g' h' | exact h.acc k g' h' | exact h.accD k g' h'
      | exact h.sth k g' h' | exact h.rev k g' h'
      | (rcases get_set_cases h' with ⟨rfl, rfl⟩ | h'
         · first | exact ⟨rfl, hg, hT⟩ | exact ⟨rfl, hg, .inl hT⟩ | exact ⟨rfl, hg, .inr hT⟩
         · first
           | exact h.temp k g' h' | exact h.con k g' h' | exact h.conD k g' h' | exact h.acc k g' h'
           | exact h.accD k g' h' | exact h.sth k g' h' | exact h.rev k g' h')

theorem storesInv_stepD (φ : GossipObj → Prop) {s s' : MonState} {e : MonEvent} (h : StoresInv φ s)
    (hg : ∀ g, e = .gossip (some g) → φ g) (hv : ∀ g i, e = .answer i (.obj g) → g.verify c.crypto = .ok → φ g)
    (hs : monStep X c s e = some s') : StoresInv φ s' := by
  rcases mon_cases X c hs with ⟨clk, _, rfl⟩ | ⟨q, w, t, rfl⟩ | ⟨q, w, g, hd, rfl⟩ | ⟨q, w, g, _, rfl⟩ | ⟨i, k, d, _, _, rfl⟩
  · constructor
    · intro k g h'
      simp [endPeriod, saveStorage, Mon.wipeStorage, GoMap.get_empty] at h'
    · exact h.con
    · intro k g h'
      exact h.conD k g (get_filter_some.1 h').1
    · exact h.acc
    · intro k g h'
      exact h.accD k g (get_filter_some.1 h').1
    · intro k g h'
      exact h.sth k g (get_filter_some.1 (get_filter_some.1 h').1).1
    · intro k g h'
      exact h.rev k g (get_filter_some.1 (get_filter_some.1 h').1).1
  · exact ⟨h.temp, h.con, h.conD, h.acc, h.accD, h.sth, h.rev⟩
  · have h0 : StoresInv φ (reTime s q w s.crvTimers) := ⟨h.temp, h.con, h.conD, h.acc, h.accD, h.sth, h.rev⟩
    rcases hd with ⟨he, ht⟩ | ⟨⟨i, hi⟩, ht, hver⟩
    · refine storesInv_store X φ h0 g (hg g he) ?_
      rcases ht with ht | ht | ht <;> simp [storedType, ht]
    · exact storesInv_store X φ h0 g (hv g i hi hver) (by simp [storedType, ht])
  · exact ⟨h.temp, h.con, h.conD, h.acc, h.accD, h.sth, h.rev⟩
  · unfold fireCRV
    split
    · exact ⟨h.temp, h.con, h.conD, h.acc, h.accD, h.sth, h.rev⟩
    · exact ⟨h.temp, h.con, h.conD, h.acc, h.accD, h.sth, h.rev⟩

theorem storesInv_step (φ : GossipObj → Prop) {s s' : MonState} {e : MonEvent} (h : StoresInv φ s)
    (hg : ∀ g, e = .gossip (some g) → φ g) (hv : ∀ g, g.verify c.crypto = .ok → φ g)
    (hs : monStep X c s e = some s') : StoresInv φ s' := storesInv_stepD X c φ h hg (fun g _ _ h => hv g h) hs

theorem storesInv_run (φ : GossipObj → Prop) (hv : ∀ g, g.verify c.crypto = .ok → φ g) (evs : List MonEvent) {s s' : MonState}
    (h : StoresInv φ s) (hg : ∀ g, MonEvent.gossip (some g) ∈ evs → φ g) (hs : monRun X c s evs = some s') :
    StoresInv φ s' := by
  induction evs generalizing s with
  | nil => simp only [monRun, Option.some.injEq] at hs; exact hs ▸ h
  | cons e t ih =>
    simp only [monRun] at hs
    cases he : monStep X c s e with
    | none => rw [he] at hs; exact absurd hs (by simp)
    | some s1 =>
      rw [he] at hs
      exact ih (storesInv_step X c φ h (fun g hh => hg g (by simp [hh])) hv he)
        (fun g hh => hg g (List.mem_cons_of_mem _ hh)) hs

/-- The object is in one of the storages of the monitor. -/
def Keeps (s : MonState) (g : GossipObj) : Prop :=
  ∃ m ∈ [s.temp, s.conflictPom, s.accusationPom, s.conflictDelta, s.accusationDelta, s.sthFull, s.revFull],
    ∃ k, m.get k = some g

/-- C40. After every history `GetObjectNumber` is the number of ids of that type for which `GetObject` returns an object, for the
four types of objects that are kept. -/
theorem C40_numbers (evs : List MonEvent) (s : MonState) (hs : monRun X c initMonitor evs = some s) (t : GType)
    (ht : t ∈ [.CON_INIT, .ACC_FULL, .STH_FULL, .REV_FULL]) :
    ∃ ids : List GossipID, ids.Nodup ∧ ids.length = getObjectNumber s t ∧
      ∀ id, id ∈ ids ↔ id.type = t ∧ Mon.getObject s id ≠ GossipObj.zero := by
  have hi := storesInv_run X c (fun _ => True) (fun _ _ => trivial) evs (storesInv_init _) (fun _ _ => trivial) hs
  have key : ∀ m : GStore, (∀ k g, m.get k = some g → k = g.getID ∧ True ∧ g.type = t) →
      (∀ id, id.type = t → Mon.getObject s id = (m.get id).getD .zero) → m.len = getObjectNumber s t →
      ∃ ids : List GossipID, ids.Nodup ∧ ids.length = getObjectNumber s t ∧
        ∀ id, id ∈ ids ↔ id.type = t ∧ Mon.getObject s id ≠ GossipObj.zero := by
    intro m h1 h2 h3
    refine ⟨m.entries.map Prod.fst, m.nodup, by rw [List.length_map, ← h3]; rfl, fun id => ?_⟩
    rw [GoMap.mem_keys_iff]
    constructor
    · rintro ⟨g, hg⟩
      obtain ⟨ha, _, hb⟩ := h1 id g hg
      have hid : id.type = t := by rw [ha]; exact hb
      refine ⟨hid, ?_⟩
      rw [h2 id hid, hg, Option.getD_some]
      rintro rfl
      rw [← hb] at ht
      simp [GossipObj.zero] at ht
    · rintro ⟨hid, hne⟩
      rw [h2 id hid] at hne
      cases hg : m.get id with
      | none => rw [hg] at hne; exact absurd rfl hne
      | some g => exact ⟨g, rfl⟩
  simp only [List.mem_cons, List.not_mem_nil, or_false] at ht
  rcases ht with rfl | rfl | rfl | rfl
  · exact key s.conflictPom hi.con (fun id hid => by simp only [Mon.getObject, hid]) rfl
  · exact key s.accusationPom hi.acc (fun id hid => by simp only [Mon.getObject, hid]) rfl
  · exact key s.sthFull hi.sth (fun id hid => by simp only [Mon.getObject, hid]) rfl
  · exact key s.revFull hi.rev (fun id hid => by simp only [Mon.getObject, hid]) rfl

theorem StoresInv.keeps {φ : GossipObj → Prop} {s : MonState} (h : StoresInv φ s) {g : GossipObj} (hk : Keeps s g) : φ g := by
  obtain ⟨m, hm, k, hg⟩ := hk
  simp only [List.mem_cons, List.not_mem_nil, or_false] at hm
  rcases hm with rfl | rfl | rfl | rfl | rfl | rfl | rfl
  · exact (h.temp k g hg).2.1
  · exact (h.con k g hg).2.1
  · exact (h.acc k g hg).2.1
  · exact (h.conD k g hg).2.1
  · exact (h.accD k g hg).2.1
  · exact (h.sth k g hg).2.1
  · exact (h.rev k g hg).2.1

/-- C39, if the gossiper's port receives verified objects only: then everything kept verifies (the answers to the
monitor's own queries are verified by the monitor). Missing for the full property: the monitor's own check. -/
theorem C39_trusting_gossiper_partial (evs : List MonEvent) (s : MonState) (h : monRun X c initMonitor evs = some s)
    (hg : ∀ g, MonEvent.gossip (some g) ∈ evs → g.verify c.crypto = .ok) (g : GossipObj) (hk : Keeps s g) :
    g.verify c.crypto = .ok :=
  (storesInv_run X c (fun g => g.verify c.crypto = .ok) (fun _ h => h) evs (storesInv_init _) hg h).keeps hk

/-- The entities the monitor queries. -/
def MonConf.urls (c : MonConf L) : List Str := c.loggerURLs ++ c.caURLs

theorem queries_step {s s' : MonState} {e : MonEvent} (h : monStep X c s e = some s')
    (hq : ∀ x ∈ s.queries, x.1 ∈ c.urls) (hw : ∀ x ∈ s.waits, x.1 ∈ c.urls) :
    (∀ x ∈ s'.queries, x.1 ∈ c.urls) ∧ ∀ x ∈ s'.waits, x.1 ∈ c.urls := by
  have hp : ∀ (s : MonState) g, (storeObject X s g).queries = s.queries ∧ (storeObject X s g).waits = s.waits := by
    intro s g
    unfold storeObject
    cases g.type <;> exact ⟨rfl, rfl⟩
  have hv : ∀ (s : MonState) g, (processValid X c s g).queries = s.queries ∧ (processValid X c s g).waits = s.waits := by
    intro s g
    by_cases hk : keptType g.type = true
    · rw [processValid_kept X c s g hk]; exact hp s g
    · rcases processValid_other X c s g (by simpa using hk) with h1 | ⟨h1, _⟩ <;> rw [h1] <;> exact ⟨rfl, rfl⟩
  cases e with
  | gossip b =>
    simp only [monStep, Option.some.injEq] at h
    subst h
    have : (handleGossip X c s b).queries = s.queries ∧ (handleGossip X c s b).waits = s.waits := by
      unfold handleGossip
      simp only
      split
      · exact ⟨rfl, rfl⟩
      · cases (b.getD GossipObj.zero).type <;> first | exact hp s _ | exact hv s _
    rw [this.1, this.2]
    exact ⟨hq, hw⟩
  | query clk =>
    simp only [monStep, Option.some.injEq] at h
    subst h
    refine ⟨fun x hx => ?_, hw⟩
    simp only [startQueries, List.mem_append, List.mem_map, List.mem_filter] at hx
    rcases hx with (hx | ⟨u, hu, rfl⟩) | ⟨u, hu, rfl⟩
    · exact hq x hx
    · exact List.mem_append_left _ hu.1
    · exact List.mem_append_right _ hu.1
  | answer i f =>
    simp only [monStep] at h
    cases hqi : s.queries[i]? with
    | none => rw [hqi] at h; cases h; exact ⟨hq, hw⟩
    | some uk =>
      obtain ⟨u, k⟩ := uk
      rw [hqi] at h
      have hu : u ∈ c.urls := hq _ (List.mem_of_getElem? hqi)
      have hq' : ∀ x ∈ s.queries.eraseIdx i, x.1 ∈ c.urls := fun x hx => hq x (List.mem_of_mem_eraseIdx hx)
      have hw' : ∀ x ∈ s.waits ++ [(u, k)], x.1 ∈ c.urls := by
        intro x hx
        rcases List.mem_append.1 hx with hx | hx
        · exact hw x hx
        · rw [List.mem_singleton.1 hx]; exact hu
      have key : (s'.queries = s.queries.eraseIdx i) ∧ (s'.waits = s.waits ∨ s'.waits = s.waits ++ [(u, k)]) := by
        cases f with
        | failed => cases h; exact ⟨rfl, .inr rfl⟩
        | obj g =>
          simp only [answerQuery] at h
          cases hver : g.verify c.crypto with
          | panic => rw [hver] at h; cases h
          | err x => rw [hver] at h; cases h; exact ⟨rfl, .inr rfl⟩
          | ok =>
            rw [hver] at h
            cases k with
            | logger => cases h; exact ⟨(hv _ g).1, .inl (hv _ g).2⟩
            | ca =>
              simp only at h
              cases hr : verifySRH X c.crypto s.crv (getSRHandDCRV X g).1 (getSRHandDCRV X g).2 g.payload.p0 g.period with
              | panic => rw [hr] at h; cases h
              | err x => rw [hr] at h; cases h; exact ⟨rfl, .inr rfl⟩
              | ok => rw [hr] at h; cases h; exact ⟨(hv _ g).1, .inl (hv _ g).2⟩
      rw [key.1]
      refine ⟨hq', ?_⟩
      rcases key.2 with h2 | h2 <;> rw [h2]
      · exact hw
      · exact hw'
  | wait i clk =>
    simp only [monStep] at h
    cases hwi : s.waits[i]? with
    | none => rw [hwi] at h; cases h; exact ⟨hq, hw⟩
    | some uk =>
      obtain ⟨u, k⟩ := uk
      rw [hwi] at h
      cases h
      have hw' : ∀ x ∈ s.waits.eraseIdx i, x.1 ∈ c.urls := fun x hx => hw x (List.mem_of_mem_eraseIdx hx)
      have key : ∀ s0 : MonState, (waitOver c clk s0 u k).queries = s0.queries ∧ (waitOver c clk s0 u k).waits = s0.waits := by
        intro s0
        have ha : (accuseEntity c clk s0 u).queries = s0.queries ∧ (accuseEntity c clk s0 u).waits = s0.waits := by
          unfold accuseEntity
          by_cases h : checkEntityPom s0 clk u = true
          · rw [if_pos h]; exact ⟨rfl, rfl⟩
          · rw [if_neg h]; exact ⟨rfl, rfl⟩
        unfold waitOver
        cases k <;> simp only <;> split <;> first | exact ha | exact ⟨rfl, rfl⟩
      rw [(key _).1, (key _).2]
      exact ⟨hq, hw'⟩
  | crv i =>
    simp only [monStep] at h
    cases hwi : s.crvTimers[i]? with
    | none => rw [hwi] at h; cases h; exact ⟨hq, hw⟩
    | some uk =>
      obtain ⟨u, k⟩ := uk
      rw [hwi] at h
      cases h
      unfold fireCRV
      split <;> exact ⟨hq, hw⟩
  | finish clk => cases h; exact ⟨hq, hw⟩

theorem queries_run (evs : List MonEvent) {s : MonState} (h : monRun X c initMonitor evs = some s) :
    (∀ x ∈ s.queries, x.1 ∈ c.urls) ∧ ∀ x ∈ s.waits, x.1 ∈ c.urls :=
  monRun_induct X c (fun s => (∀ x ∈ s.queries, x.1 ∈ c.urls) ∧ ∀ x ∈ s.waits, x.1 ∈ c.urls)
    (fun _ _ _ hp hs => queries_step X c hs hp.1 hp.2) evs h ⟨by simp [initMonitor], by simp [initMonitor]⟩

/-- The monitor can sign, and its key is registered under its own name. -/
structure OwnKey (pub : L.RsaPriv → L.RsaPub) (cc : CryptoConfig L) : Prop where
  can : CanSign cc.signSecretKey
  safe : Safe cc.selfID
  scheme : cc.signScheme = go!"rsa"
  registered : cc.signPublicMap.get cc.selfID = some (pub cc.signSecretKey)

theorem accusation_verifies (J : L.JsonLaws) (pub : L.RsaPriv → L.RsaPub) (laws : L.RsaLaws pub) (ho : OwnKey pub c.crypto)
    (cc : CryptoConfig L) (hc : cc.signScheme = go!"rsa")
    (hk : cc.signPublicMap.get c.crypto.selfID = some (pub c.crypto.signSecretKey)) (clk : Clock) (u : Str) (hu : u ≠ []) :
    (accusation c clk u).verify cc = .ok := by
  refine init_verifies J pub laws c.crypto.signSecretKey ho.can c.crypto.selfID ho.safe cc hc hk _
    (.inr (.inr rfl)) hu ?_
  simp only [accusation, CryptoConfig.sign, ho.scheme, if_true]

/-- C39, for what leaves the monitor: everything it posts to its gossiper verifies. Missing for the full property: what it
keeps. -/
theorem C39_sent_verified_partial (J : L.JsonLaws) (pub : L.RsaPriv → L.RsaPub) (laws : L.RsaLaws pub)
    (ho : OwnKey pub c.crypto) (hu : [] ∉ c.urls) (evs : List MonEvent) (s : MonState)
    (h : monRun X c initMonitor evs = some s) (g : GossipObj) (hg : g ∈ s.sent) : g.verify c.crypto = .ok := by
  have key := monRun_induct X c (fun s => ((∀ x ∈ s.queries, x.1 ∈ c.urls) ∧ ∀ x ∈ s.waits, x.1 ∈ c.urls) ∧
    ∀ g ∈ s.sent, g.verify c.crypto = .ok) ?_ evs h
    ⟨⟨by simp [initMonitor], by simp [initMonitor]⟩, by simp [initMonitor]⟩
  · exact key.2 g hg
  · rintro s e s' ⟨hqw, hsent⟩ hs
    refine ⟨queries_step X c hs hqw.1 hqw.2, ?_⟩
    rcases mon_cases X c hs with ⟨clk, _, rfl⟩ | ⟨q, w, t, rfl⟩ | ⟨q, w, g, _, rfl⟩ | ⟨q, w, g, hw, rfl⟩ | ⟨i, k, d, _, _, rfl⟩
    · exact hsent
    · exact hsent
    · have : (storeObject X (reTime s q w s.crvTimers) g).sent = s.sent := by
        unfold storeObject; cases g.type <;> rfl
      rw [this]; exact hsent
    · intro g' hg'
      rcases List.mem_append.1 hg' with hg' | hg'
      · exact hsent g' hg'
      · rw [List.mem_singleton.1 hg']
        cases hw with
        | forwarded i u k he hq hv hk => exact hv
        | accused i clk u k he hwi hg hp hc ht =>
          rw [hg]
          refine accusation_verifies c J pub laws ho c.crypto ho.scheme ho.registered clk u ?_
          rintro rfl
          exact hu (hqw.2 _ (List.mem_of_getElem? hwi))
    · unfold fireCRV
      split <;> exact hsent


/-! ### C41: proofs of misbehaviour are kept -/

theorem poms_step {s s' : MonState} {e : MonEvent} (h : monStep X c s e = some s') :
    (s'.conflictPom = s.conflictPom ∨
      ∃ g, Delivers e g ∧ g.type = .CON_INIT ∧ s'.conflictPom = s.conflictPom.set g.getID g) ∧
    (s'.accusationPom = s.accusationPom ∨
      ∃ g, Delivers e g ∧ g.type = .ACC_FULL ∧ s'.accusationPom = s.accusationPom.set g.getID g) := by
  rcases mon_cases X c h with ⟨clk, _, rfl⟩ | ⟨q, w, t, rfl⟩ | ⟨q, w, g, hd, rfl⟩ | ⟨q, w, g, _, rfl⟩ | ⟨i, k, d, _, _, rfl⟩
  · exact ⟨.inl rfl, .inl rfl⟩
  · exact ⟨.inl rfl, .inl rfl⟩
  · have hdel : Delivers e g := by
      rcases hd with ⟨he, _⟩ | ⟨⟨i, he⟩, _⟩
      · exact .inl he
      · exact .inr ⟨i, he⟩
    unfold storeObject
    cases ht : g.type <;>
      first
      | exact ⟨.inr ⟨g, hdel, ht, rfl⟩, .inl rfl⟩
      | exact ⟨.inl rfl, .inr ⟨g, hdel, ht, rfl⟩⟩
      | exact ⟨.inl rfl, .inl rfl⟩
  · exact ⟨.inl rfl, .inl rfl⟩
  · unfold fireCRV
    split <;> exact ⟨.inl rfl, .inl rfl⟩

/-- C41. Once the monitor holds a proof under an id it holds one under that id for ever: through every message, query,
timer and period end. -/
theorem C41_never_dropped_partial (evs : List MonEvent) (s s' : MonState) (h : monRun X c s evs = some s') (id : GossipID) :
    (s.conflictPom.has id = true → s'.conflictPom.has id = true) ∧
    (s.accusationPom.has id = true → s'.accusationPom.has id = true) := by
  refine ⟨fun h0 => ?_, fun h0 => ?_⟩
  · refine monRun_induct X c (fun s => s.conflictPom.has id = true) ?_ evs h h0
    intro s e s' hs hst
    rcases (poms_step X c hst).1 with h1 | ⟨g, _, _, h1⟩
    · simpa only [h1] using hs
    · simp only [h1, GoMap.has_set, hs, Bool.or_true]
  · refine monRun_induct X c (fun s => s.accusationPom.has id = true) ?_ evs h h0
    intro s e s' hs hst
    rcases (poms_step X c hst).2 with h1 | ⟨g, _, _, h1⟩
    · simpa only [h1] using hs
    · simp only [h1, GoMap.has_set, hs, Bool.or_true]

/-- C41. The very same proof is kept as long as no different object with the same id is delivered. Missing for the full
property: such deliveries, see the next theorem. -/
theorem C41_same_proof_kept_partial (evs : List MonEvent) (s s' : MonState) (h : monRun X c s evs = some s') (g : GossipObj)
    (hd : ∀ e ∈ evs, ∀ g', Delivers e g' → g'.getID = g.getID → g' = g) :
    (s.conflictPom.get g.getID = some g → s'.conflictPom.get g.getID = some g) ∧
    (s.accusationPom.get g.getID = some g → s'.accusationPom.get g.getID = some g) := by
  induction evs generalizing s with
  | nil => simp only [monRun, Option.some.injEq] at h; subst h; exact ⟨id, id⟩
  | cons e t ih =>
    simp only [monRun] at h
    cases he : monStep X c s e with
    | none => rw [he] at h; exact absurd h (by simp)
    | some s1 =>
      rw [he] at h
      obtain ⟨i1, i2⟩ := ih s1 h (fun e' h' => hd e' (List.mem_cons_of_mem _ h'))
      have hset : ∀ (m : GStore) g', Delivers e g' → m.get g.getID = some g → (m.set g'.getID g').get g.getID = some g := by
        intro m g' hde hm
        by_cases hi : g.getID = g'.getID
        · rw [hi, GoMap.get_set_self, hd e (by simp) g' hde hi.symm]
        · rw [GoMap.get_set_ne _ _ hi, hm]
      refine ⟨fun h0 => i1 ?_, fun h0 => i2 ?_⟩
      · rcases (poms_step X c he).1 with h1 | ⟨g', hde, _, h1⟩
        · rw [h1]; exact h0
        · rw [h1]; exact hset _ g' hde h0
      · rcases (poms_step X c he).2 with h1 | ⟨g', hde, _, h1⟩
        · rw [h1]; exact h0
        · rw [h1]; exact hset _ g' hde h0

/-- C41 fails for the proof itself: any other object with the same id, valid or not, posted to the gossiper's port
replaces a conflict proof (an accusation proof likewise). -/
theorem C41_violated_replaced (s : MonState) (g g' : GossipObj) (ht : g'.type = .CON_INIT)
    (hg : s.conflictPom.get g.getID = some g) (hid : g'.getID = g.getID) (hne : g' ≠ g) :
    ∃ s', monStep X c s (.gossip (some g')) = some s' ∧ s'.conflictPom.get g.getID = some g' := by
  refine ⟨_, rfl, ?_⟩
  have hd : isDuplicate s g' = false := by
    have : g.getID.type = .CON_INIT := by rw [← hid]; exact ht
    simp only [isDuplicate, hid, Mon.getObject, this, hg, Option.getD_some, decide_eq_false_iff_not]
    exact fun h => hne h.symm
  have : handleGossip X c s (some g') = storeObject X s g' := by
    rw [show handleGossip X c s (some g') = processValid X c s g' by simp [handleGossip, hd, ht],
      processValid_kept X c s g' (by simp [keptType, ht])]
  rw [this, ← hid]
  simp [storeObject, ht, GoMap.get_set_self]

/-! ### C42, C43, C44: the end of a period -/

/-- C42. The wipe keeps exactly the threshold-signed objects and recent proofs of the current period, empties the temporary
storage and leaves the proof storages alone. -/
theorem C42_wipe_exact (clk : Clock) (s : MonState) (k : GossipID) (g : GossipObj) :
    let w := Mon.wipeStorage clk s
    (w.sthFull.get k = some g ↔ s.sthFull.get k = some g ∧ k.period = clk.period) ∧
    (w.revFull.get k = some g ↔ s.revFull.get k = some g ∧ k.period = clk.period) ∧
    (w.conflictDelta.get k = some g ↔ s.conflictDelta.get k = some g ∧ k.period = clk.period) ∧
    (w.accusationDelta.get k = some g ↔ s.accusationDelta.get k = some g ∧ k.period = clk.period) ∧
    w.temp.get k = none ∧ w.temp.len = 0 ∧ w.conflictPom = s.conflictPom ∧ w.accusationPom = s.accusationPom ∧
    w.crv = s.crv := by
  refine ⟨?_, ?_, ?_, ?_, rfl, rfl, rfl, rfl, rfl⟩ <;>
  · simp only [Mon.wipeStorage]
    rw [get_filter_some]
    simp

theorem values_nodup (m : GStore) (h : ∀ k g, m.get k = some g → k = g.getID) : m.values.Nodup := by
  have hk : m.values.map GossipObj.getID = m.entries.map Prod.fst := by
    unfold GoMap.values
    rw [List.map_map]
    apply List.map_congr_left
    rintro ⟨a, b⟩ hab
    exact (h a b ((GoMap.get_eq_some_iff _ _ _).2 hab)).symm
  exact List.Pairwise.of_map GossipObj.getID (fun a b hab e => hab (congrArg _ e)) (hk ▸ m.nodup : (m.values.map GossipObj.getID).Nodup)

theorem mem_values_id (m : GStore) (h : ∀ k g, m.get k = some g → k = g.getID) (g : GossipObj) :
    g ∈ m.values ↔ m.get g.getID = some g := by
  rw [GoMap.mem_values_iff]
  constructor
  · rintro ⟨k, hk⟩
    rw [← h k g hk]; exact hk
  · exact fun hh => ⟨_, hh⟩

/-- C43. The update written at the end of a period lists exactly once every threshold-signed tree head and revocation and
every recent proof the monitor then holds, and nothing else; what it then holds is what it held before, of the current
period, minus the tree heads and revocations excluded by a conflict proof filed under period "0". -/
theorem C43_update_exact (evs : List MonEvent) (s s' : MonState) (clk : Clock) (h : monRun X c initMonitor evs = some s)
    (hs : monStep X c s (.finish clk) = some s') :
    ∃ u, s'.files.get (periodIO c clk) = some u ∧ u.period = clk.period ∧ u.monitorID = c.crypto.selfID ∧
      (u.sths.Nodup ∧ u.revs.Nodup ∧ u.pomCONs.Nodup ∧ u.pomACCs.Nodup) ∧
      (∀ g, g ∈ u.sths ↔ s.sthFull.get g.getID = some g ∧ g.period = clk.period ∧
        s.conflictPom.get ⟨go!"0", .CON_INIT, g.payload.p0⟩ = none) ∧
      (∀ g, g ∈ u.revs ↔ s.revFull.get g.getID = some g ∧ g.period = clk.period ∧
        s.conflictPom.get ⟨go!"0", .CON_INIT, g.payload.p0⟩ = none) ∧
      (∀ g, g ∈ u.pomCONs ↔ s.conflictDelta.get g.getID = some g ∧ g.period = clk.period) ∧
      (∀ g, g ∈ u.pomACCs ↔ s.accusationDelta.get g.getID = some g ∧ g.period = clk.period) := by
  have h1 := storesInv_run X c (fun _ => True) (fun _ _ => trivial) evs (storesInv_init _) (fun _ _ => trivial) h
  have h2 := storesInv_step X c (fun _ => True) h1 (fun _ _ => trivial) (fun _ _ => trivial) hs
  cases hs
  refine ⟨_, GoMap.get_set_self _ _ _, rfl, rfl, ⟨?_, ?_, ?_, ?_⟩, ?_, ?_, ?_, ?_⟩
  · exact values_nodup _ fun k g hg => (h2.sth k g hg).1
  · exact values_nodup _ fun k g hg => (h2.rev k g hg).1
  · exact values_nodup _ fun k g hg => (h2.conD k g hg).1
  · exact values_nodup _ fun k g hg => (h2.accD k g hg).1
  · intro g
    refine (mem_values_id _ (fun k g hg => (h2.sth k g hg).1) g).trans ?_
    simp only [endPeriod, saveStorage, Mon.wipeStorage, cleanConflicting, get_filter_some, GossipObj.getID, Bool.not_eq_true', has_false,
      decide_eq_true_eq]
    exact ⟨fun ⟨⟨a, b⟩, d⟩ => ⟨a, d, b⟩, fun ⟨a, d, b⟩ => ⟨⟨a, b⟩, d⟩⟩
  · intro g
    refine (mem_values_id _ (fun k g hg => (h2.rev k g hg).1) g).trans ?_
    simp only [endPeriod, saveStorage, Mon.wipeStorage, cleanConflicting, get_filter_some, GossipObj.getID, Bool.not_eq_true', has_false,
      decide_eq_true_eq]
    exact ⟨fun ⟨⟨a, b⟩, d⟩ => ⟨a, d, b⟩, fun ⟨a, d, b⟩ => ⟨⟨a, b⟩, d⟩⟩
  · intro g
    refine (mem_values_id _ (fun k g hg => (h2.conD k g hg).1) g).trans ?_
    simp only [endPeriod, saveStorage, Mon.wipeStorage, cleanConflicting, get_filter_some, GossipObj.getID, decide_eq_true_eq]
  · intro g
    refine (mem_values_id _ (fun k g hg => (h2.accD k g hg).1) g).trans ?_
    simp only [endPeriod, saveStorage, Mon.wipeStorage, cleanConflicting, get_filter_some, GossipObj.getID, decide_eq_true_eq]

/-- C44, for conflict proofs filed under period "0": the update has no tree head and no revocation of the entity. Missing
for the full property: conflict proofs with any other period, which are all that gossipers make (next theorem). -/
theorem C44_excluded_partial (evs : List MonEvent) (s s' : MonState) (clk : Clock) (h : monRun X c initMonitor evs = some s)
    (hs : monStep X c s (.finish clk) = some s') (g : GossipObj) (ht : g.type = .CON_INIT) (hp : g.period = go!"0")
    (hd : MonEvent.gossip (some g) ∈ evs) (u : ClientUpdate) (hu : s'.files.get (periodIO c clk) = some u) :
    (∀ x ∈ u.sths, x.payload.p0 ≠ g.payload.p0) ∧ ∀ x ∈ u.revs, x.payload.p0 ≠ g.payload.p0 := by
  have hhas : s.conflictPom.has ⟨go!"0", .CON_INIT, g.payload.p0⟩ = true := by
    obtain ⟨a, b, rfl⟩ := List.append_of_mem hd
    rw [show a ++ MonEvent.gossip (some g) :: b = (a ++ [MonEvent.gossip (some g)]) ++ b by simp, monRun_append] at h
    obtain ⟨s2, h2, h3⟩ := Option.bind_eq_some_iff.1 h
    obtain ⟨s1, _, h4⟩ := (monRun_snoc X c).1 h2
    refine (C41_never_dropped_partial X c b s2 s h3 _).1 ?_
    cases h4
    have hg := (handleGossip_stored X c s1 g (by simp [storedType, keptType, ht])).1
    have hid : g.getID = ⟨go!"0", .CON_INIT, g.payload.p0⟩ := by simp [GossipObj.getID, hp, ht]
    rw [← hid, GoMap.has_iff]
    cases hh : (handleGossip X c s1 (some g)).conflictPom.get g.getID with
    | some v => exact ⟨v, rfl⟩
    | none =>
      exfalso
      have ht' : g.getID.type = .CON_INIT := ht
      simp only [Mon.getObject, ht', hh, Option.getD_none] at hg
      rw [← hg] at ht
      cases ht
  have hne : s.conflictPom.get ⟨go!"0", .CON_INIT, g.payload.p0⟩ ≠ none := by
    intro hn
    rw [← has_false, hhas] at hn
    cases hn
  obtain ⟨u', hu', _, _, _, h1, h2, _⟩ := C43_update_exact X c evs s s' clk h hs
  rw [hu] at hu'
  cases hu'
  exact ⟨fun x hx he => hne (he ▸ ((h1 x).1 hx).2.2), fun x hx he => hne (he ▸ ((h2 x).1 hx).2.2)⟩

/-- A string that is the minute of some instant, as every clock of the project gives it. -/
def ClockPeriod (p : Str) : Prop := ∃ t : Instant, p = getCurrentPeriod t

theorem clockPeriod_ne_zero {p : Str} (h : ClockPeriod p) : p ≠ go!"0" := by
  obtain ⟨t, rfl⟩ := h
  rw [period_eq_padInt, padInt_two _ (by have := t.minute_lt; omega)]
  intro hh
  have := congrArg List.length hh
  simp at this

/-- C44 fails for every conflict proof a gossiper makes (its period is the minute at which the conflict was found, never
"0"): such proofs exclude nothing from the update. -/
theorem C44_violated_real_proofs (evs : List MonEvent) (s s' : MonState) (clk : Clock)
    (h : monRun X c initMonitor evs = some s) (hs : monStep X c s (.finish clk) = some s')
    (hreal : ∀ e ∈ evs, ∀ g, Delivers e g → g.type = .CON_INIT → ClockPeriod g.period)
    (g : GossipObj) (hg : s.sthFull.get g.getID = some g) (hp : g.period = clk.period) :
    ∃ u, s'.files.get (periodIO c clk) = some u ∧ g ∈ u.sths := by
  have hcon : ∀ e, s.conflictPom.get ⟨go!"0", .CON_INIT, e⟩ = none := by
    intro e
    have key : ∀ (evs : List MonEvent) (s0 s : MonState), monRun X c s0 evs = some s →
        (∀ e ∈ evs, ∀ g, Delivers e g → g.type = .CON_INIT → ClockPeriod g.period) →
        s0.conflictPom.get ⟨go!"0", .CON_INIT, e⟩ = none → s.conflictPom.get ⟨go!"0", .CON_INIT, e⟩ = none := by
      intro evs
      induction evs with
      | nil => intro s0 s h _ h0; cases h; exact h0
      | cons ev t ih =>
        intro s0 s h hr h0
        simp only [monRun] at h
        cases he : monStep X c s0 ev with
        | none => rw [he] at h; exact absurd h (by simp)
        | some s1 =>
          rw [he] at h
          refine ih s1 s h (fun e' h' => hr e' (List.mem_cons_of_mem _ h')) ?_
          rcases (poms_step X c he).1 with h1 | ⟨g', hde, ht, h1⟩
          · rw [h1]; exact h0
          · rw [h1, GoMap.get_set_ne]
            · exact h0
            · intro hh
              exact clockPeriod_ne_zero (hr ev (by simp) g' hde ht) (congrArg GossipID.period hh).symm
    exact key evs initMonitor s h hreal (GoMap.get_empty _)
  obtain ⟨u, hu, _, _, _, h1, _⟩ := C43_update_exact X c evs s s' clk h hs
  exact ⟨u, hu, (h1 g).2 ⟨hg, hp, hcon _⟩⟩

/-- The proofs of gossipers are of this kind: `Generate_CON_INIT` stamps the current minute. -/
theorem generateCON_period (clk : Clock) (o1 o2 : GossipObj) (h : ClockPeriod clk.period) :
    ClockPeriod (generateCON clk o1 o2).period := h


/-! ### C45, C46: accusations -/

/-- The history has no period end. -/
def noFinish : List MonEvent → Bool
  | [] => true
  | .finish _ :: _ => false
  | _ :: t => noFinish t

theorem noFinish_append (a b : List MonEvent) : noFinish (a ++ b) = (noFinish a && noFinish b) := by
  induction a with
  | nil => rfl
  | cons e t ih => cases e <;> simp [noFinish, ih]

theorem temp_step {s s' : MonState} {e : MonEvent} (h : monStep X c s e = some s') (hf : ∀ clk, e ≠ .finish clk)
    (id : GossipID) (h0 : s.temp.has id = true) : s'.temp.has id = true := by
  rcases mon_cases X c h with ⟨clk, he, rfl⟩ | ⟨q, w, t, rfl⟩ | ⟨q, w, g, hd, rfl⟩ | ⟨q, w, g, _, rfl⟩ | ⟨i, k, d, _, _, rfl⟩
  · exact absurd he (hf clk)
  · exact h0
  · unfold storeObject
    cases ht : g.type <;> first | exact h0 | (simp only [GoMap.has_set]; rw [show (reTime s q w s.crvTimers).temp = s.temp from rfl, h0, Bool.or_true])
  · exact h0
  · unfold fireCRV
    split <;> exact h0

theorem temp_run (evs : List MonEvent) {s s' : MonState} (h : monRun X c s evs = some s') (hf : noFinish evs = true)
    (id : GossipID) (h0 : s.temp.has id = true) : s'.temp.has id = true := by
  induction evs generalizing s with
  | nil => cases h; exact h0
  | cons e t ih =>
    simp only [monRun] at h
    cases he : monStep X c s e with
    | none => rw [he] at h; exact absurd h (by simp)
    | some s1 =>
      rw [he] at h
      refine ih h (by cases e <;> first | exact hf | cases hf) (temp_step X c he ?_ id h0)
      rintro clk rfl
      cases hf

/-- The stores the monitor consults have a delivered object right after its delivery. -/
theorem gossip_has {s s' : MonState} {g : GossipObj} (h : monStep X c s (.gossip (some g)) = some s') :
    (g.type = .STH_INIT ∨ g.type = .REV_INIT → s'.temp.has g.getID = true) ∧
    (g.type = .CON_INIT → s'.conflictPom.has g.getID = true) ∧
    (g.type = .ACC_FULL → s'.accusationPom.has g.getID = true) := by
  cases h
  have key : ∀ (m : Option GossipObj), m.getD .zero = g → storedType g.type = true → m.isSome = true := by
    intro m hm ht
    cases m with
    | some _ => rfl
    | none =>
      simp only [Option.getD_none] at hm
      subst hm
      simp [storedType, keptType, GossipObj.zero] at ht
  have hT : g.getID.type = g.type := rfl
  refine ⟨fun ht => ?_, fun ht => ?_, fun ht => ?_⟩
  · have hs : storedType g.type = true := by rcases ht with ht | ht <;> simp [storedType, ht]
    have h1 := (handleGossip_stored X c s g hs).1
    refine key _ ?_ hs
    rcases ht with ht | ht <;> simpa only [Mon.getObject, hT, ht] using h1
  · have hs : storedType g.type = true := by simp [storedType, keptType, ht]
    have h1 := (handleGossip_stored X c s g hs).1
    exact key _ (by simpa only [Mon.getObject, hT, ht] using h1) hs
  · have hs : storedType g.type = true := by simp [storedType, keptType, ht]
    have h1 := (handleGossip_stored X c s g hs).1
    exact key _ (by simpa only [Mon.getObject, hT, ht] using h1) hs

theorem run_split {s s' : MonState} {a b : List MonEvent} {e : MonEvent} (h : monRun X c s (a ++ e :: b) = some s') :
    ∃ s1 s2, monRun X c s a = some s1 ∧ monStep X c s1 e = some s2 ∧ monRun X c s2 b = some s' := by
  rw [show a ++ e :: b = (a ++ [e]) ++ b by simp, monRun_append] at h
  obtain ⟨s2, h2, h3⟩ := Option.bind_eq_some_iff.1 h
  obtain ⟨s1, h1, h4⟩ := (monRun_snoc X c).1 h2
  exact ⟨s1, s2, h1, h4, h3⟩

/-- The statement that the monitor waits for: of entity `u` of kind `k` for the period `p`. -/
def StatementOf (k : EntityKind) (p u : Str) (g : GossipObj) : Prop :=
  g.type = k.initType ∧ g.period = p ∧ g.payload.p0 = u

/-- C45. When a waiting time ends and the monitor posts something, it is one accusation, of the entity waited for; it
verifies at everyone who knows the monitor's key; since the last period end the gossiper delivered no statement of the
entity for the current period, and it never delivered an accusation proof for the current period nor a conflict proof
(filed under "0") against it. -/
theorem C45_accusation_justified (J : L.JsonLaws) (pub : L.RsaPriv → L.RsaPub) (laws : L.RsaLaws pub)
    (ho : OwnKey pub c.crypto) (hu : [] ∉ c.urls) (evs : List MonEvent) (s s' : MonState) (i : Nat) (clk : Clock)
    (h : monRun X c initMonitor evs = some s) (hs : monStep X c s (.wait i clk) = some s') (hne : s'.sent ≠ s.sent) :
    ∃ u k g, s.waits[i]? = some (u, k) ∧ u ∈ c.urls ∧ s'.sent = s.sent ++ [g] ∧
      (g.type = .ACC_INIT ∧ g.payload = ⟨u, [], []⟩ ∧ g.period = clk.period ∧ g.signer = c.crypto.selfID) ∧
      (∀ cc : CryptoConfig L, cc.signScheme = go!"rsa" →
        cc.signPublicMap.get c.crypto.selfID = some (pub c.crypto.signSecretKey) → g.verify cc = .ok) ∧
      (∀ old new, evs = old ++ new → noFinish new = true →
        ∀ x, MonEvent.gossip (some x) ∈ new → ¬ StatementOf k clk.period u x) ∧
      (∀ x, MonEvent.gossip (some x) ∈ evs →
        ¬ (x.type = .ACC_FULL ∧ x.period = clk.period ∧ x.payload.p0 = u) ∧
        ¬ (x.type = .CON_INIT ∧ x.period = go!"0" ∧ x.payload.p0 = u)) := by
  have hsent : ∃ g q w, SendsWhy c s (.wait i clk) g ∧ s' = send (reTime s q w s.crvTimers) g := by
    rcases mon_cases X c hs with ⟨_, he, rfl⟩ | ⟨q, w, t, rfl⟩ | ⟨q, w, g, hd, rfl⟩ | ⟨q, w, g, hw, rfl⟩ | ⟨i, k, d, _, _, rfl⟩
    · cases he
    · exact absurd rfl hne
    · rcases hd with ⟨he, _⟩ | ⟨⟨_, he⟩, _⟩ <;> cases he
    · exact ⟨g, q, w, hw, rfl⟩
    · unfold fireCRV at hne
      split at hne <;> exact absurd rfl hne
  obtain ⟨g, q, w, hw, rfl⟩ := hsent
  cases hw with
  | forwarded _ _ _ he => cases he
  | accused i' clk' u k he hwi hg hp hc ht =>
    cases he
    have huu : u ∈ c.urls := (queries_run X c evs h).2 _ (List.mem_of_getElem? hwi)
    refine ⟨u, k, g, hwi, huu, rfl, by subst hg; exact ⟨rfl, rfl, rfl, rfl⟩, ?_, ?_, ?_⟩
    · intro cc h1 h2
      rw [hg]
      exact accusation_verifies c J pub laws ho cc h1 h2 clk u (fun hh => hu (hh ▸ huu))
    · rintro old new rfl hf x hx ⟨hx1, hx2, hx3⟩
      obtain ⟨a, b, rfl⟩ := List.append_of_mem hx
      rw [← List.append_assoc] at h
      obtain ⟨s1, s2, _, h2, h3⟩ := run_split X c h
      have hfb : noFinish b = true := by
        rw [noFinish_append, Bool.and_eq_true] at hf
        exact hf.2
      have h4 := temp_run X c b h3 hfb _ ((gossip_has X c h2).1 (by rw [hx1]; cases k <;> simp [EntityKind.initType]))
      have hid : x.getID = ⟨clk.period, k.initType, u⟩ := by simp [GossipObj.getID, hx1, hx2, hx3]
      rw [hid, GoMap.has, ht] at h4
      cases h4
    · intro x hx
      obtain ⟨a, b, rfl⟩ := List.append_of_mem hx
      obtain ⟨s1, s2, _, h2, h3⟩ := run_split X c h
      constructor
      · rintro ⟨hx1, hx2, hx3⟩
        have h4 := (C41_never_dropped_partial X c b s2 s h3 _).2 ((gossip_has X c h2).2.2 hx1)
        have hid : x.getID = ⟨clk.period, .ACC_FULL, u⟩ := by simp [GossipObj.getID, hx1, hx2, hx3]
        rw [hid, GoMap.has, hp] at h4
        cases h4
      · rintro ⟨hx1, hx2, hx3⟩
        have h4 := (C41_never_dropped_partial X c b s2 s h3 _).1 ((gossip_has X c h2).2.1 hx1)
        have hid : x.getID = ⟨go!"0", .CON_INIT, u⟩ := by simp [GossipObj.getID, hx1, hx2, hx3]
        rw [hid, GoMap.has, hc] at h4
        cases h4

/-- C45, converse: when the waiting time ends without a statement and without a proof on file, the accusation is posted. -/
theorem C45_silence_is_accused (s : MonState) (i : Nat) (clk : Clock) (u : Str) (k : EntityKind)
    (hw : s.waits[i]? = some (u, k)) (hp : s.accusationPom.get ⟨clk.period, .ACC_FULL, u⟩ = none)
    (hc : s.conflictPom.get ⟨go!"0", .CON_INIT, u⟩ = none) (ht : s.temp.get ⟨clk.period, k.initType, u⟩ = none) :
    ∃ s', monStep X c s (.wait i clk) = some s' ∧ s'.sent = s.sent ++ [accusation c clk u] := by
  have hc1 : checkEntityPom { s with waits := s.waits.eraseIdx i } clk u = false := by
    simp [checkEntityPom, has_false, hp, hc]
  have h2 : waitOver c clk { s with waits := s.waits.eraseIdx i } u k =
      send { s with waits := s.waits.eraseIdx i } (accusation c clk u) := by
    cases k <;> simp only [EntityKind.initType] at ht <;> simp [waitOver, hc1, accuseEntity, has_false, ht]
  refine ⟨_, by simp only [monStep, hw]; rfl, ?_⟩
  rw [h2]
  rfl

/-- C45. A failed or unusable answer to a query starts the waiting time for that entity. -/
theorem C45_bad_answer_starts_wait (s : MonState) (i : Nat) (u : Str) (k : EntityKind) (f : Fetched)
    (hq : s.queries[i]? = some (u, k))
    (hf : f = .failed ∨ ∃ g e, f = .obj g ∧ g.verify c.crypto = .err e) :
    ∃ s', monStep X c s (.answer i f) = some s' ∧ s'.waits = s.waits ++ [(u, k)] := by
  rcases hf with rfl | ⟨g, e, rfl, hv⟩
  · exact ⟨_, by simp only [monStep, hq, answerQuery]; rfl, rfl⟩
  · exact ⟨_, by simp only [monStep, hq, answerQuery, hv]; rfl, rfl⟩

/-- C46, when the statement carries the period string of the clock: an entity whose statement for the current period was
delivered since the last period end is not accused. Missing for the full property: the loggers and CAs of the project
write the minute without a leading zero, see the next theorem. -/
theorem C46_delivered_not_accused_partial (old new : List MonEvent) (g : GossipObj) (s s' : MonState) (i : Nat)
    (clk : Clock) (u : Str) (k : EntityKind) (hf : noFinish new = true)
    (h : monRun X c initMonitor (old ++ .gossip (some g) :: new) = some s) (hg : StatementOf k clk.period u g)
    (hw : s.waits[i]? = some (u, k)) (hs : monStep X c s (.wait i clk) = some s') : s'.sent = s.sent := by
  obtain ⟨s1, s2, _, h2, h3⟩ := run_split X c h
  obtain ⟨hx1, hx2, hx3⟩ := hg
  have h4 := temp_run X c new h3 hf _ ((gossip_has X c h2).1 (by rw [hx1]; cases k <;> simp [EntityKind.initType]))
  have hid : g.getID = ⟨clk.period, k.initType, u⟩ := by simp [GossipObj.getID, hx1, hx2, hx3]
  rw [hid] at h4
  rcases mon_cases X c hs with ⟨_, he, rfl⟩ | ⟨q, w, t, rfl⟩ | ⟨q, w, g, hd, rfl⟩ | ⟨q, w, g, hw', rfl⟩ | ⟨i, k, d, _, _, rfl⟩
  · cases he
  · rfl
  · rcases hd with ⟨he, _⟩ | ⟨⟨_, he⟩, _⟩ <;> cases he
  · cases hw' with
    | forwarded _ _ _ he => cases he
    | accused i' clk' u' k' he hwi _ _ _ ht =>
      cases he
      rw [hw] at hwi
      cases hwi
      rw [GoMap.has, ht] at h4
      cases h4
  · unfold fireCRV
    split <;> rfl

/-- C46, from the tenth minute of the hour: a statement for the current minute as the loggers and CAs write it protects
the entity. -/
theorem C46_from_minute_ten_partial (old new : List MonEvent) (g : GossipObj) (s s' : MonState) (i : Nat) (t : Instant)
    (clk : Clock) (hclk : clk.period = getCurrentPeriod t) (h10 : 10 ≤ t.minute) (u : Str) (k : EntityKind)
    (hf : noFinish new = true) (h : monRun X c initMonitor (old ++ .gossip (some g) :: new) = some s)
    (hg : StatementOf k (itoa t.minute) u g) (hw : s.waits[i]? = some (u, k))
    (hs : monStep X c s (.wait i clk) = some s') : s'.sent = s.sent := by
  refine C46_delivered_not_accused_partial X c old new g s s' i clk u k hf h ?_ hw hs
  rw [hclk, ← (C72_notations_agree_partial t).2 h10, C72_numeric_period]
  exact hg

/-- C46: an entity whose own answer verifies is not put on the waiting list. -/
theorem C46_answered_not_waited_for_partial (s s' : MonState) (i : Nat) (u : Str) (g : GossipObj)
    (hq : s.queries[i]? = some (u, .logger)) (hv : g.verify c.crypto = .ok)
    (h : monStep X c s (.answer i (.obj g)) = some s') : s'.waits = s.waits ∧
      (g.type = .STH_INIT → g.signer ∈ c.allLoggers → s'.sent = s.sent ++ [g]) := by
  simp only [monStep, hq, answerQuery, hv, Option.some.injEq] at h
  subst h
  constructor
  · by_cases hk : keptType g.type = true
    · rw [processValid_kept X c _ g hk]
      unfold storeObject
      cases g.type <;> rfl
    · rcases processValid_other X c { s with queries := s.queries.eraseIdx i } g (by simpa using hk) with h1 | ⟨h1, _⟩ <;>
        rw [h1] <;> rfl
  · intro ht hl
    simp [processValid, ht, isLogger, hl, send]

/-- C46 fails in the first ten minutes of every hour: a monitor that failed to reach an entity but holds, from its
gossiper, the very statement for the current minute in the notation of the loggers and CAs, accuses it. -/
theorem C46_violated_first_ten_minutes (t : Instant) (ht : t.minute < 10) (clk : Clock)
    (hclk : clk.period = getCurrentPeriod t) (u : Str) (k : EntityKind) (g : GossipObj)
    (hg : StatementOf k (itoa t.minute) u g) (hconf : c.loggerURLs.map (·, EntityKind.logger) ++ c.caURLs.map (·, EntityKind.ca) = [(u, k)]) :
    ∃ s, monRun X c initMonitor [.query clk, .answer 0 .failed, .gossip (some g), .wait 0 clk] = some s ∧
      s.temp.get g.getID = some g ∧ s.sent = [accusation c clk u] := by
  obtain ⟨hg1, hg2, hg3⟩ := hg
  have hstored : storedType g.type = true := by rw [hg1]; cases k <;> rfl
  have hq : startQueries c clk initMonitor = { initMonitor with queries := [(u, k)] } := by
    have hpom : ∀ u, checkEntityPom initMonitor clk u = false := fun u => rfl
    simp only [startQueries, hpom, decide_true]
    rw [List.filter_eq_self.2 (fun _ _ => rfl), List.filter_eq_self.2 (fun _ _ => rfl), List.append_assoc, hconf]
    rfl
  let s2 : MonState := { initMonitor with waits := [(u, k)] }
  have h3 : handleGossip X c s2 (some g) = { s2 with temp := GoMap.empty.set g.getID g } := by
    have hd : isDuplicate s2 g = false := by
      simp only [isDuplicate, decide_eq_false_iff_not]
      intro hh
      have : g = GossipObj.zero := by
        rw [← hh]
        unfold Mon.getObject
        cases g.getID.type <;> rfl
      rw [this] at hstored
      cases hstored
    cases k <;> simp only [EntityKind.initType] at hg1 <;> simp [handleGossip, hd, hg1, storeObject] <;> rfl
  have hne : (⟨clk.period, k.initType, u⟩ : GossipID) ≠ g.getID := by
    intro hh
    have hp := congrArg GossipID.period hh
    simp only [GossipObj.getID, hg2, hclk] at hp
    exact C72_violated_first_ten_minutes t ht (by rw [C72_numeric_period, hp])
  obtain ⟨s', h4, h5⟩ := C45_silence_is_accused X c { s2 with temp := GoMap.empty.set g.getID g } 0 clk u k rfl rfl rfl
    (by rw [show ({ s2 with temp := GoMap.empty.set g.getID g } : MonState).temp = GoMap.empty.set g.getID g from rfl,
          GoMap.get_set_ne _ _ hne]; rfl)
  refine ⟨s', ?_, ?_, h5⟩
  · simp only [monRun, monStep, hq]
    simp only [List.getElem?_cons_zero, answerQuery]
    rw [show ({ initMonitor with queries := [(u, k)].eraseIdx 0, waits := initMonitor.waits ++ [(u, k)] } : MonState) = s2 from rfl, h3]
    simp only [monStep] at h4
    simp only [h4]
  · have : s'.temp = GoMap.empty.set g.getID g := by
      rcases mon_cases X c h4 with ⟨_, he, rfl⟩ | ⟨q, w, t, rfl⟩ | ⟨q, w, g, hd, rfl⟩ | ⟨q, w, g, hw', rfl⟩ | ⟨i, k, d, he, _, rfl⟩
      · cases he
      · rfl
      · rcases hd with ⟨he, _⟩ | ⟨⟨_, he⟩, _⟩ <;> cases he
      · rfl
      · cases he
    rw [this, GoMap.get_set_self]


/-! ### C47: the signed revocation hash -/

/-- What an SRH signs: the hash of the period, of the vector known before and of the delta. -/
def srhMessage (L : Lib) (X : XLib) (period : Str) (old d : BitSet) : Str :=
  L.sha256 (period ++ L.sha256 (X.marshal old) ++ L.sha256 (X.marshal d))

/-- C47. `VerifySRH` accepts exactly when the SRH decodes to a signature that verifies, under the key registered for the
id inside it, over period, known vector (the delta itself when none is known) and delta. -/
theorem C47_srh_iff (pub : L.RsaPriv → L.RsaPub) (laws : L.RsaLaws pub) (cc : CryptoConfig L)
    (he : cc.signPublicMap.get [] = none) (crv : GoMap Str BitSet) (srh : Str) (d : BitSet) (ca period : Str) :
    verifySRH X cc crv srh d ca period = .ok ↔ ∃ id bytes old,
      (crv.get ca = some old ∨ crv.get ca = none ∧ old = d) ∧ RsaAccepts cc srh (srhMessage L X period old d) id bytes := by
  have hold : ∀ old, (crv.get ca = some old ∨ crv.get ca = none ∧ old = d) ↔ old = (crv.get ca).getD d := by
    intro old
    cases crv.get ca <;> simp [eq_comm]
  have hv : verifySRH X cc crv srh d ca period = .ok ↔
      L.rsaVerify (cc.signPublicMap.get (RSASig.value L srh).id)
        (L.sha256 (srhMessage L X period ((crv.get ca).getD d) d)) (RSASig.value L srh).sig = .ok := by
    unfold verifySRH rsaVerifyMsg srhMessage
    simp only
    split <;> simp_all
  rw [hv]
  constructor
  · intro h
    unfold RSASig.value at h
    cases hj : L.jsonStrMap srh with
    | none =>
      simp only [hj, zeroSig, he] at h
      exact absurd h (laws.absent _ _)
    | some m =>
      cases hh : hexDecode ((m.get (go!"sig")).getD []) with
      | none =>
        simp only [hj, hh, he] at h
        exact absurd h (laws.absent _ _)
      | some b =>
        simp only [hj, hh] at h
        exact ⟨_, b, _, (hold _).2 rfl, m, hj, hh, rfl, h⟩
  · rintro ⟨id, bytes, old, ho, m, hj, hh, hid, h⟩
    rw [(hold _).1 ho] at h
    subst hid
    unfold RSASig.value
    simp only [hj, hh]
    exact h

/-- C47. With genuine keys the holder of the key named in the SRH signed it, over this period, vector and delta. -/
theorem C47_srh_was_signed (pub : L.RsaPriv → L.RsaPub) (laws : L.RsaLaws pub) (cc : CryptoConfig L)
    (he : cc.signPublicMap.get [] = none) (hg : KeysGenuine cc pub) (crv : GoMap Str BitSet) (srh : Str) (d : BitSet)
    (ca period : Str) (h : verifySRH X cc crv srh d ca period = .ok) :
    ∃ id k bytes, cc.signPublicMap.get id = some (pub k) ∧
      SignedWith k (srhMessage L X period ((crv.get ca).getD d) d) bytes := by
  obtain ⟨id, bytes, old, ho, m, hj, hh, hid, hv⟩ := (C47_srh_iff X pub laws cc he crv srh d ca period).1 h
  have hold : old = (crv.get ca).getD d := by
    rcases ho with ho | ⟨ho, rfl⟩ <;> simp [ho]
  rw [hold] at hv
  cases hk : cc.signPublicMap.get id with
  | none => rw [hk] at hv; exact absurd hv (laws.absent _ _)
  | some p =>
    obtain ⟨k, rfl⟩ := hg id p hk
    rw [hk] at hv
    exact ⟨id, k, bytes, hk, laws.unique _ _ _ hv⟩

/-! ### C48: accumulation of deltas -/

/-- What a monitor (monitor/types.go:252-260) and a client (client/client.go:150-154) do with a delta: the first one of a
CA is kept, of all later ones the union is computed and thrown away. -/
def applyDelta (m : GoMap Str BitSet) (x : Str × BitSet) : GoMap Str BitSet := if m.has x.1 then m else m.set x.1 x.2

theorem applyDelta_get (m : GoMap Str BitSet) (ca : Str) (x : Str × BitSet) :
    (applyDelta m x).get ca = (m.get ca).or (if x.1 = ca then some x.2 else none) := by
  unfold applyDelta
  by_cases h : m.has x.1 = true
  · rw [if_pos h]
    obtain ⟨v, hv⟩ := (GoMap.has_iff _ _).1 h
    by_cases hx : x.1 = ca
    · subst hx; simp [hv]
    · simp [hx]
  · rw [if_neg h]
    have hn : m.get x.1 = none := (has_false _ _).1 (by simpa using h)
    by_cases hx : x.1 = ca
    · subst hx; simp [hn, GoMap.get_set_self]
    · rw [GoMap.get_set_ne _ _ (fun hh => hx hh.symm)]; simp [hx]

theorem applyAll_get (l : List (Str × BitSet)) (m : GoMap Str BitSet) (ca : Str) :
    (l.foldl applyDelta m).get ca = (m.get ca).or ((l.find? fun x => x.1 = ca).map (·.2)) := by
  induction l generalizing m with
  | nil => simp
  | cons x t ih =>
    rw [List.foldl_cons, ih, applyDelta_get]
    by_cases hx : x.1 = ca
    · cases m.get ca <;> simp [hx]
    · simp [hx]

/-- The deltas applied by one event. -/
def firedBy (s : MonState) : MonEvent → List (Str × BitSet)
  | .crv i => (s.crvTimers[i]?).toList
  | _ => []

/-- The deltas whose timers fire in a history of the monitor, in order. -/
def firedIn (s : MonState) : List MonEvent → List (Str × BitSet)
  | [] => []
  | e :: t => firedBy s e ++ (match monStep X c s e with | none => [] | some s' => firedIn s' t)

theorem crv_step {s s' : MonState} {e : MonEvent} (h : monStep X c s e = some s') :
    s'.crv = (firedBy s e).foldl applyDelta s.crv := by
  by_cases hc : ∃ i, e = .crv i
  · obtain ⟨i, rfl⟩ := hc
    simp only [monStep] at h
    cases ht : s.crvTimers[i]? with
    | none =>
      rw [ht] at h
      simp only [firedBy, ht, ← Option.some.inj h, Option.toList, List.foldl_nil]
    | some kd =>
      obtain ⟨k, d⟩ := kd
      rw [ht] at h
      simp only [firedBy, ht, ← Option.some.inj h, Option.toList, List.foldl_nil, List.foldl_cons, applyDelta, fireCRV]
      split <;> rfl
  · have hf : firedBy s e = [] := by
      cases e <;> simp_all [firedBy]
    rw [hf, List.foldl_nil]
    rcases mon_cases X c h with ⟨_, he, rfl⟩ | ⟨q, w, t, rfl⟩ | ⟨q, w, g, hd, rfl⟩ | ⟨q, w, g, hw', rfl⟩ | ⟨i, k, d, he, hk, rfl⟩
    · rfl
    · rfl
    · unfold storeObject
      cases g.type <;> rfl
    · rfl
    · exact absurd ⟨i, he⟩ hc

theorem crv_run (es : List MonEvent) : ∀ {s s' : MonState}, monRun X c s es = some s' →
    s'.crv = (firedIn X c s es).foldl applyDelta s.crv := by
  induction es with
  | nil => intro s s' h; simp only [monRun, Option.some.injEq] at h; subst h; rfl
  | cons e t ih =>
    intro s s' h
    simp only [monRun] at h
    cases hm : monStep X c s e with
    | none => rw [hm] at h; exact absurd h (by simp)
    | some s1 =>
      rw [hm] at h
      simp only [firedIn, hm, List.foldl_append]
      rw [← crv_step X c hm]
      exact ih h

/-- The bits of the union of the deltas of a CA. -/
def InUnion (l : List (Str × BitSet)) (ca : Str) (r : Nat) : Prop := ∃ x ∈ l, x.1 = ca ∧ x.2.test r = true

/-- C48, the part that holds at the monitor: over every history, the vector of a CA is the first delta that came into
effect. So it has no bit that was not published, and it has exactly the bits of the union as long as later deltas bring
none that the first did not have. Missing: `C48_violated_later_deltas_lost`. -/
theorem C48_first_delta_partial (ca : Str) (es : List MonEvent) (s : MonState)
    (h : monRun X c initMonitor es = some s) :
    s.crv.get ca = ((firedIn X c initMonitor es).find? fun x => x.1 = ca).map (·.2) ∧
    (∀ v, s.crv.get ca = some v → (∀ r, v.test r = true → InUnion (firedIn X c initMonitor es) ca r) ∧
      ((∀ x ∈ firedIn X c initMonitor es, x.1 = ca → ∀ r, x.2.test r = true → v.test r = true) →
        ∀ r, v.test r = true ↔ InUnion (firedIn X c initMonitor es) ca r)) := by
  have hg : s.crv.get ca = ((firedIn X c initMonitor es).find? fun x => x.1 = ca).map (·.2) := by
    rw [crv_run X c es h, applyAll_get]
    simp [initMonitor, GoMap.get_empty]
  refine ⟨hg, fun v hv => ?_⟩
  rw [hg] at hv
  obtain ⟨x, hx, rfl⟩ := Option.map_eq_some_iff.1 hv
  have hm := List.mem_of_find?_eq_some hx
  have hk : x.1 = ca := by simpa using List.find?_some hx
  exact ⟨fun r hr => ⟨x, hm, hk, hr⟩, fun hsub r => ⟨fun hr => ⟨x, hm, hk, hr⟩,
    fun ⟨y, hy, hyk, hyr⟩ => hsub y hy hyk r hyr⟩⟩

/-- C48 is false: once a CA has a vector, no later delta of it has any effect: a published bit that the vector does not
have is lost, in every later history. -/
theorem C48_violated_later_deltas_lost (ca : Str) (v : BitSet) (s s' : MonState) (es : List MonEvent)
    (hv : s.crv.get ca = some v) (h : monRun X c s es = some s') : s'.crv.get ca = some v := by
  rw [crv_run X c es h, applyAll_get, hv]
  rfl

/-- C48 is false for every CA: a delta `d` comes into effect, later a delta with a new bit `r`, which is then in the
union of the deltas applied and not in the monitor's vector. -/
theorem C48_violated_union (ca : Str) (d d' : BitSet) (r : Nat) (hr : d.test r = false) (hr' : d'.test r = true)
    (s : MonState) (i j : Nat) (hs : s.crv.get ca = none) (hi : s.crvTimers[i]? = some (ca, d))
    (hj : (s.crvTimers.eraseIdx i)[j]? = some (ca, d')) :
    ∃ s', monRun X c s [.crv i, .crv j] = some s' ∧ InUnion (firedIn X c s [.crv i, .crv j]) ca r ∧
      ∃ v, s'.crv.get ca = some v ∧ v.test r = false := by
  have h1 : monStep X c s (.crv i) = some { s with crvTimers := s.crvTimers.eraseIdx i, crv := s.crv.set ca d } := by
    have : s.crv.has ca = false := (has_false _ _).2 hs
    simp [monStep, hi, fireCRV, this]
  have h2 : monStep X c { s with crvTimers := s.crvTimers.eraseIdx i, crv := s.crv.set ca d } (.crv j) =
      some { s with crvTimers := (s.crvTimers.eraseIdx i).eraseIdx j, crv := s.crv.set ca d } := by
    have : (s.crv.set ca d).has ca = true := (GoMap.has_iff _ _).2 ⟨d, GoMap.get_set_self _ _ _⟩
    simp [monStep, hj, fireCRV, this]
  refine ⟨{ s with crvTimers := (s.crvTimers.eraseIdx i).eraseIdx j, crv := s.crv.set ca d }, ?_, ?_,
    d, GoMap.get_set_self _ _ _, hr⟩
  · simp only [monRun, h1, h2]
  · refine ⟨(ca, d'), ?_, rfl, hr'⟩
    simp only [firedIn, h1, firedBy, hi]
    simp [hj]

/-! ### Concrete cases -/

namespace Ref

/-- Monitor M1 watching logger L1 and CA C1. -/
def monConf : MonConf lib := ⟨conf (go!"M1"), [go!"C1"], [go!"L1"], [go!"C1"], [go!"L1"], go!"3"⟩

/-- Statements of L1 with the padded period of `clk`, as first seen and as FULL. -/
def sth05 : GossipObj := { sth with period := go!"05" }
def sthFull05 : GossipObj := { sth with period := go!"05", type := .STH_FULL }
def conL1 (p : Str) : GossipObj := { sth with period := p, type := .CON_INIT, sig := ⟨sth.sig.s0, sth'.sig.s0⟩ }

def at05 : Instant := ⟨2024, 1, 1, 10, 5, 40, by decide, by decide, by decide, by decide, by decide, by decide⟩

/-- Both queries fail; L1's statement comes from the gossiper, C1 stays silent. -/
def monHistory : List MonEvent :=
  [.query clk, .answer 0 .failed, .answer 0 .failed, .gossip (some sth05), .gossip (some sthFull05), .wait 0 clk]

set_option synthInstance.maxSize 1000 in
/-- C45, C46: L1 is not accused and C1 is. -/
example : ((monRun xlib monConf initMonitor monHistory).bind fun s => (monStep xlib monConf s (.wait 0 clk)).map fun s' =>
    (s.waits, s.sent, s'.sent.map (fun g => (g.type, g.payload.p0, decide (g.verify (conf (go!"G1")) = .ok))))) =
    some ([(go!"C1", .ca)], [], [(.ACC_INIT, go!"C1", true)]) := by decide +kernel

/-- C45: the hypotheses of `C45_accusation_justified`, with an accusation sent. -/
example : OwnKey rsaPub monConf.crypto ∧ [] ∉ monConf.urls ∧ noFinish monHistory = true ∧
    StatementOf .logger clk.period (go!"L1") sth05 := by
  refine ⟨?_, by decide, by decide, ?_⟩
  · exact ⟨fun d => ⟨_, rfl⟩, by unfold Safe; decide, rfl, rfl⟩
  · exact ⟨rfl, rfl, rfl⟩

set_option synthInstance.maxSize 1000 in
/-- C43: the update of the period holds the FULL object; C42: what carries another period is gone. -/
example : ((monRun xlib monConf initMonitor (monHistory ++ [.gossip (some { sthFull05 with period := go!"04" })])).bind fun s =>
    (monStep xlib monConf s (.finish clk)).map fun s' =>
      (s.sthFull.len, s'.sthFull.len, s'.temp.len, (s'.files.get (go!"2")).map fun u => (u.sths == [sthFull05], u.period))) =
    some (2, 1, 0, some (true, go!"05")) := by decide +kernel

/-- C40: three deliveries, two of them of the same tree head, and a conflict proof. -/
example : ((monRun xlib monConf initMonitor [.gossip (some sthFull05), .gossip (some sthFull05),
      .gossip (some { sthFull05 with period := go!"04" }), .gossip (some (conL1 (go!"0")))]).map fun s =>
    [GType.CON_INIT, .ACC_FULL, .STH_FULL, .REV_FULL].map (Mon.getObjectNumber s)) = some [1, 0, 2, 0] := by decide +kernel

/-- C41: another conflict proof with the same id takes the place of the first. -/
example : ((monRun xlib monConf initMonitor [.gossip (some (conL1 (go!"05")))]).map fun s =>
    s.conflictPom.get (conL1 (go!"05")).getID == some (conL1 (go!"05"))) = some true ∧
    ({ conL1 (go!"05") with timestamp := go!"u" } : GossipObj).getID = (conL1 (go!"05")).getID ∧
    ({ conL1 (go!"05") with timestamp := go!"u" } : GossipObj) ≠ conL1 (go!"05") := by decide +kernel

/-- C44: a conflict proof with period "0" keeps L1 out of the update, one with the period of the clock does not. -/
example : ((monRun xlib monConf initMonitor [.gossip (some (conL1 (go!"0"))), .gossip (some sthFull05)]).bind fun s =>
    (monStep xlib monConf s (.finish clk)).map fun s' => ((s'.files.get (go!"2")).map fun u => u.sths.length)) = some (some 0) ∧
    ((monRun xlib monConf initMonitor [.gossip (some (conL1 (go!"05"))), .gossip (some sthFull05)]).bind fun s =>
    (monStep xlib monConf s (.finish clk)).map fun s' => ((s'.files.get (go!"2")).map fun u => u.sths.length)) = some (some 1) := by
  decide +kernel

example : ClockPeriod (go!"05") := ⟨at05, by decide +kernel⟩

/-- C46: minute 5, the logger writes "5". -/
example : at05.minute < 10 ∧ clk.period = getCurrentPeriod at05 ∧ StatementOf .logger (itoa at05.minute) (go!"L1") sth ∧
    ({ monConf with caURLs := [] } : MonConf lib).loggerURLs.map (·, EntityKind.logger) ++ [] = [(go!"L1", .logger)] :=
  ⟨by decide, by decide +kernel, ⟨rfl, by decide +kernel, rfl⟩, rfl⟩

/-- C47: the first revocation of an honest CA passes at a monitor that knows no vector of it, and not for another period. -/
example : ((caRun xlib caConf caRoot caInit [.revoke 4, .finish at58 []]).map fun s =>
    let g := (s.revStorage.get (caNextPeriod at58)).getD .zero
    let x := getSRHandDCRV xlib g
    (decide (verifySRH xlib monConf.crypto .empty x.1 x.2 (go!"C1") g.period = .ok),
     decide (verifySRH xlib monConf.crypto .empty x.1 x.2 (go!"C1") (go!"0") = .ok), x.2.test 4, x.2.test 5)) =
    some (true, false, true, false) := by decide +kernel

/-- A revocation as the gossiper delivers it. -/
def revFull (p : Str) (d : BitSet) : GossipObj :=
  { sth with period := p, type := .REV_FULL,
             payload := ⟨go!"C1", [], xlib.encRev ⟨p, xlib.compress (xlib.marshal d), []⟩⟩ }

/-- C48: two deltas of C1 come into effect, with bit 4 and with bit 7. -/
example : ((monRun xlib monConf initMonitor [.gossip (some (revFull (go!"05") ((BitSet.new 10).set 4))), .crv 0,
      .gossip (some (revFull (go!"06") ((BitSet.new 10).set 7))), .crv 0]).map fun s =>
    (s.crv.get (go!"C1")).map fun v => (v.test 4, v.test 7)) = some (some (true, false)) := by decide +kernel

end Ref
end CTng
