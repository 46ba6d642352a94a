import Verif.Proofs.GossiperMain
/- Invariants of the sequential gossiper: what each handler does to the state, as a composition of primitive changes. -/
set_option autoImplicit false

namespace CTng
variable {L : Lib} (cf : GConf L)

/-- State after a successful store. -/
def storedState (clk : Clock) (s : GState) (g : GossipObj) : GState :=
  storeNote cf clk (storeBlacklist { s with timerlist := s.timerlist ++ [clk.second],
                                            storage := s.storage.putObj g.type g.getID g } g) g

theorem storeGossipObject_cases (clk : Clock) (s : GState) (g : GossipObj) (ht : g.type.isObj = true)
    (hd : dupCheck s g = false) :
    (g.verify cf.crypto = .panic ∧ storeGossipObject cf clk s g = (s, .panic)) ∨
    ((∃ e, g.verify cf.crypto = .err e) ∧ storeGossipObject cf clk s g = (s, .refused)) ∨
    (g.verify cf.crypto = .ok ∧ storeGossipObject cf clk s g = (storedState cf clk s g, .stored)) := by
  unfold storeGossipObject
  cases hv : g.verify cf.crypto with
  | panic => simp
  | err e => simp
  | ok =>
    simp only
    rcases hl : storeLocked { s with timerlist := s.timerlist ++ [clk.second] } g with ⟨s', b⟩
    rcases storage_storeLocked ht hl with ⟨rfl, rfl, h⟩ | ⟨rfl, rfl, h⟩
    · rw [show dupCheck { s with timerlist := s.timerlist ++ [clk.second] } g = dupCheck s g from dupCheck_congr rfl g,
        hd] at h
      cases h
    · simp [storedState]

/-- Properties of the state closed under the changes the handlers make, each with what follows it in the handler. -/
structure Closed (P : GState → Prop) : Prop where
  init : ∀ clk s g, P s → (g.type = .STH_INIT ∨ g.type = .REV_INIT) → g.verify cf.crypto = .ok → dupCheck s g = false →
    inBlacklist s g.payload.p0 = false → isMalicious s g = false →
    P { sendToMonitor (sendToGossipers cf (storedState cf clk s g) g) g with
          timers := (sendToMonitor (sendToGossipers cf (storedState cf clk s g) g) g).timers ++ [g] }
  acc : ∀ clk s g, P s → g.type = .ACC_INIT → g.verify cf.crypto = .ok → dupCheck s g = false →
    inBlacklist s g.payload.p0 = false → P (storedState cf clk s g)
  con : ∀ clk s g, P s → g.type = .CON_INIT → g.verify cf.crypto = .ok → dupCheck s g = false →
    inBlacklist s g.payload.p0 = false → itemCount s g.getID .CON_INIT = 0 →
    P (sendToMonitor (sendToGossipers cf (storedState cf clk s g) g) g)
  full : ∀ clk s g, P s → g.type.isFull = true → g.verify cf.crypto = .ok → dupCheck s g = false →
    inBlacklist s g.payload.p0 = false → itemCount s g.getID g.type = 0 → P (sendToMonitor (storedState cf clk s g) g)
  fullRefused : ∀ s g, P s → g.type.isFull = true → g.verify cf.crypto ≠ .ok → P (sendToMonitor s g)
  frag : ∀ s g, P s → g.type.isFrag = true → dupCheck s g = false → inBlacklist s g.payload.p0 = false →
    ((s.storage.fragList g.type g.getID).length : Int) < cf.crypto.threshold →
    P { s with storage := s.storage.appendFrag g.type g.getID g }
  fragPeers : ∀ s g, P s → g.type.isFrag = true → P (sendToGossipers cf s g)
  signed : ∀ s g f, P s → g.type.isInit = true → generateFRAG cf g = some f → inBlacklist s g.payload.p0 = false →
    P (s.emit [.signed f])
  gen : ∀ clk s (g o : GossipObj), P s → g.type.isFrag = true →
    generateFULL cf clk (s.storage.fragList g.type g.getID) g.getTargetType = some o → P (s.emit [.generatedFull g.getID o])
  note : ∀ clk s, P s → P (noteConverge cf clk s)

/-- Properties closed under each single change. -/
structure FineClosed (P : GState → Prop) : Prop where
  store : ∀ clk s g, P s → g.type.isObj = true → g.verify cf.crypto = .ok → dupCheck s g = false →
    inBlacklist s g.payload.p0 = false →
    (g.type.isFull = true ∨ g.type = .CON_INIT → itemCount s g.getID g.type = 0) → P (storedState cf clk s g)
  frag : ∀ s g, P s → g.type.isFrag = true → dupCheck s g = false → inBlacklist s g.payload.p0 = false →
    ((s.storage.fragList g.type g.getID).length : Int) < cf.crypto.threshold →
    P { s with storage := s.storage.appendFrag g.type g.getID g }
  peers : ∀ s g, P s → P (sendToGossipers cf s g)
  owner : ∀ s g, P s → P (sendToMonitor s g)
  signed : ∀ s f, P s → P (s.emit [.signed f])
  gen : ∀ s k o, P s → P (s.emit [.generatedFull k o])
  arm : ∀ s g, P s → P { s with timers := s.timers ++ [g] }
  note : ∀ clk s, P s → P (noteConverge cf clk s)

/-- As `Closed`, with the fragment handler as one change. -/
structure HClosed (P : GState → Prop) : Prop where
  init : ∀ clk s g, P s → (g.type = .STH_INIT ∨ g.type = .REV_INIT) → g.verify cf.crypto = .ok → dupCheck s g = false →
    inBlacklist s g.payload.p0 = false → isMalicious s g = false →
    P { sendToMonitor (sendToGossipers cf (storedState cf clk s g) g) g with
          timers := (sendToMonitor (sendToGossipers cf (storedState cf clk s g) g) g).timers ++ [g] }
  acc : ∀ clk s g, P s → g.type = .ACC_INIT → g.verify cf.crypto = .ok → dupCheck s g = false →
    inBlacklist s g.payload.p0 = false → P (storedState cf clk s g)
  con : ∀ clk s g, P s → g.type = .CON_INIT → g.verify cf.crypto = .ok → dupCheck s g = false →
    inBlacklist s g.payload.p0 = false → itemCount s g.getID .CON_INIT = 0 →
    P (sendToMonitor (sendToGossipers cf (storedState cf clk s g) g) g)
  full : ∀ clk s g, P s → g.type.isFull = true → g.verify cf.crypto = .ok → dupCheck s g = false →
    inBlacklist s g.payload.p0 = false → itemCount s g.getID g.type = 0 → P (sendToMonitor (storedState cf clk s g) g)
  fullRefused : ∀ s g, P s → g.type.isFull = true → g.verify cf.crypto ≠ .ok → P (sendToMonitor s g)
  fragH : ∀ clk s g, P s → g.type.isFrag = true → P (handle cf clk s g).1
  signed : ∀ s g f, P s → g.type.isInit = true → generateFRAG cf g = some f → inBlacklist s g.payload.p0 = false →
    P (s.emit [.signed f])
  note : ∀ clk s, P s → P (noteConverge cf clk s)

theorem FineClosed.closed {P : GState → Prop} (H : FineClosed cf P) : Closed cf P where
  init := by
    intro clk s g hs ht hv hd hb _
    refine H.arm _ _ (H.owner _ _ (H.peers _ _ (H.store clk s g hs ?_ hv hd hb ?_)))
    · rcases ht with h | h <;> simp [h, GType.isObj]
    · rcases ht with h | h <;> simp [h, GType.isFull]
  acc := by
    intro clk s g hs ht hv hd hb
    exact H.store clk s g hs (by simp [ht, GType.isObj]) hv hd hb (by simp [ht, GType.isFull])
  con := by
    intro clk s g hs ht hv hd hb hc
    exact H.owner _ _ (H.peers _ _ (H.store clk s g hs (by simp [ht, GType.isObj]) hv hd hb (fun _ => by rw [ht]; exact hc)))
  full := by
    intro clk s g hs ht hv hd hb hc
    exact H.owner _ _ (H.store clk s g hs (by cases h : g.type <;> simp_all [GType.isFull, GType.isObj]) hv hd hb (fun _ => hc))
  fullRefused := fun s g hs _ _ => H.owner s g hs
  frag := H.frag
  fragPeers := fun s g hs _ => H.peers s g hs
  signed := fun s _ f hs _ _ _ => H.signed s f hs
  gen := fun _ s _ o hs _ _ => H.gen s _ o hs
  note := H.note

section
variable {cf}
variable {P : GState → Prop} (H : Closed cf P) (clk : Clock)
include H

theorem Closed.handleFull {s : GState} {g : GossipObj} (hs : P s) (ht : g.type.isFull = true)
    (hd : dupCheck s g = false) (hb : inBlacklist s g.payload.p0 = false) : P (handleFull cf clk s g).1 := by
  have hobj : g.type.isObj = true := by cases h : g.type <;> simp_all [GType.isFull, GType.isObj]
  unfold CTng.handleFull
  rw [if_neg (by simp [hb])]
  split
  · rename_i hc
    rcases storeGossipObject_cases cf clk s g hobj hd with ⟨_, h⟩ | ⟨hv, h⟩ | ⟨hv, h⟩
    · simp only [h]; exact hs
    · simp only [h]; exact H.note _ _ (H.fullRefused _ _ hs ht (by obtain ⟨e, he⟩ := hv; simp [he]))
    · simp only [h]; exact H.note _ _ (H.full clk s g hs ht hv hd hb hc)
  · exact H.note _ _ hs

theorem Closed.handleCon {s : GState} {g : GossipObj} (hs : P s) (ht : g.type = .CON_INIT)
    (hd : dupCheck s g = false) (hb : inBlacklist s g.payload.p0 = false) : P (handleCon cf clk s g).1 := by
  have hobj : g.type.isObj = true := by simp [ht, GType.isObj]
  unfold CTng.handleCon
  split
  · rename_i hc
    rcases storeGossipObject_cases cf clk s g hobj hd with ⟨_, h⟩ | ⟨_, h⟩ | ⟨hv, h⟩
    · simp only [h]; exact hs
    · simp only [h]; exact hs
    · simp only [h]; exact H.con clk s g hs ht hv hd hb (by rw [← ht]; exact hc)
  · exact hs

theorem Closed.handle_full {s : GState} {g : GossipObj} (hs : P s) (ht : g.type.isFull = true) :
    P (handle cf clk s g).1 := by
  rw [CTng.handle_full cf clk ht]
  split
  · exact hs
  · split
    · exact hs
    · exact H.handleFull clk hs ht (by simp_all) (by simp_all)

theorem Closed.handle_con {s : GState} {g : GossipObj} (hs : P s) (ht : g.type = .CON_INIT) :
    P (handle cf clk s g).1 := by
  rw [CTng.handle_con cf clk ht]
  split
  · exact hs
  · split
    · exact hs
    · exact H.handleCon clk hs ht (by simp_all) (by simp_all)

theorem Closed.handle_frag {s : GState} {g : GossipObj} (hs : P s) (ht : g.type.isFrag = true) :
    P (handle cf clk s g).1 := by
  rw [CTng.handle_frag cf clk ht]
  split
  · exact hs
  · rename_i hd
    split
    · exact hs
    · rename_i hb
      unfold handleFrag
      split
      · exact hs
      · have h1 : P (readAndStore cf s g).1 := by
          rw [readAndStore_frag cf ht]
          split
          · rename_i hl; exact H.frag s g hs ht (by simpa using hd) (by simpa using hb) hl
          · exact hs
        rcases hr : readAndStore cf s g with ⟨s1, before⟩
        rw [hr] at h1
        have h1 : P s1 := h1
        have fin : ∀ s', P s' → P (if (before : Int) < cf.crypto.threshold then (sendToGossipers cf s' g, false)
            else (s', false)).1 := by
          intro s' hs'
          split
          · exact H.fragPeers _ _ hs' ht
          · exact hs'
        simp only
        by_cases hc : (before : Int) = cf.crypto.threshold - 1
        · rw [if_pos hc]
          cases hg : generateFULL cf clk (getObjectList s1 g.getID g.type) g.getTargetType with
          | none => exact h1
          | some o =>
            simp only
            have h3 := H.handle_full clk (g := o) (H.gen clk s1 g o h1 ht hg)
              (by rw [generateFULL_type hg]; exact getTargetType_isFull ht)
            rcases hr2 : handle cf clk (s1.emit [.generatedFull g.getID o]) o with ⟨s2, b⟩
            rw [hr2] at h3
            cases b
            · exact fin s2 h3
            · exact h3
        · rw [if_neg hc]
          exact fin s1 h1

end

theorem Closed.hclosed {P : GState → Prop} (H : Closed cf P) : HClosed cf P where
  init := H.init
  acc := H.acc
  con := H.con
  full := H.full
  fullRefused := H.fullRefused
  fragH := fun clk _ _ hs ht => H.handle_frag clk hs ht
  signed := H.signed
  note := H.note

section
variable {cf}
variable {P : GState → Prop} (H : HClosed cf P) (clk : Clock)
include H

theorem HClosed.handleFull {s : GState} {g : GossipObj} (hs : P s) (ht : g.type.isFull = true)
    (hd : dupCheck s g = false) (hb : inBlacklist s g.payload.p0 = false) : P (handleFull cf clk s g).1 := by
  have hobj : g.type.isObj = true := by cases h : g.type <;> simp_all [GType.isFull, GType.isObj]
  unfold CTng.handleFull
  rw [if_neg (by simp [hb])]
  split
  · rename_i hc
    rcases storeGossipObject_cases cf clk s g hobj hd with ⟨_, h⟩ | ⟨hv, h⟩ | ⟨hv, h⟩
    · simp only [h]; exact hs
    · simp only [h]; exact H.note _ _ (H.fullRefused _ _ hs ht (by obtain ⟨e, he⟩ := hv; simp [he]))
    · simp only [h]; exact H.note _ _ (H.full clk s g hs ht hv hd hb hc)
  · exact H.note _ _ hs

theorem HClosed.handleCon {s : GState} {g : GossipObj} (hs : P s) (ht : g.type = .CON_INIT)
    (hd : dupCheck s g = false) (hb : inBlacklist s g.payload.p0 = false) : P (handleCon cf clk s g).1 := by
  have hobj : g.type.isObj = true := by simp [ht, GType.isObj]
  unfold CTng.handleCon
  split
  · rename_i hc
    rcases storeGossipObject_cases cf clk s g hobj hd with ⟨_, h⟩ | ⟨_, h⟩ | ⟨hv, h⟩
    · simp only [h]; exact hs
    · simp only [h]; exact hs
    · simp only [h]; exact H.con clk s g hs ht hv hd hb (by rw [← ht]; exact hc)
  · exact hs

theorem HClosed.handle_full {s : GState} {g : GossipObj} (hs : P s) (ht : g.type.isFull = true) :
    P (handle cf clk s g).1 := by
  rw [CTng.handle_full cf clk ht]
  split
  · exact hs
  · split
    · exact hs
    · exact H.handleFull clk hs ht (by simp_all) (by simp_all)

theorem HClosed.handle_con {s : GState} {g : GossipObj} (hs : P s) (ht : g.type = .CON_INIT) :
    P (handle cf clk s g).1 := by
  rw [CTng.handle_con cf clk ht]
  split
  · exact hs
  · split
    · exact hs
    · exact H.handleCon clk hs ht (by simp_all) (by simp_all)

/-- Closed properties are preserved by `Handle_Gossip_object`. -/
theorem HClosed.handle {s : GState} (g : GossipObj) (hs : P s) : P (handle cf clk s g).1 := by
  by_cases hi : g.type = .STH_INIT ∨ g.type = .REV_INIT
  · have hobj : g.type.isObj = true := by rcases hi with h | h <;> simp [h, GType.isObj]
    rw [handle_sthrev cf clk hi]
    split
    · exact hs
    · rename_i hd
      split
      · exact hs
      · rename_i hb
        unfold handleInit
        split
        · exact hs
        · split
          · exact hs
          · split
            · exact H.handle_con clk hs rfl
            · rename_i hm
              rcases storeGossipObject_cases cf clk s g hobj (by simpa using hd) with ⟨_, h⟩ | ⟨_, h⟩ | ⟨hv, h⟩
              · simp only [h]; exact hs
              · simp only [h]; exact hs
              · simp only [h]
                exact H.init clk s g hs hi hv (by simpa using hd) (by simpa using hb) (by simpa using hm)
  by_cases ha : g.type = .ACC_INIT
  · have hobj : g.type.isObj = true := by simp [ha, GType.isObj]
    rw [handle_acc cf clk ha]
    split
    · exact hs
    · rename_i hd
      split
      · exact hs
      · rename_i hb
        unfold handleAcc
        split
        · exact hs
        · split
          · exact hs
          · rcases storeGossipObject_cases cf clk s g hobj (by simpa using hd) with ⟨_, h⟩ | ⟨_, h⟩ | ⟨hv, h⟩
            · simp only [h]; exact hs
            · simp only [h]; exact hs
            · simp only [h]
              have h1 : P (storedState cf clk s g) := H.acc clk s g hs ha hv (by simpa using hd) (by simpa using hb)
              split
              · exact h1
              · rename_i hb'
                unfold signStatement
                cases hg : generateFRAG cf g with
                | none => exact h1
                | some f =>
                  simp only [Option.map_some]
                  exact H.fragH clk _ _ (H.signed _ g f h1 (by simp [ha, GType.isInit]) hg (by simpa using hb')) (by rw [generateFRAG_type hg, ha]; rfl)
  by_cases hc : g.type = .CON_INIT
  · exact H.handle_con clk hs hc
  by_cases hf : g.type.isFrag = true
  · exact H.fragH clk s g hs hf
  by_cases hF : g.type.isFull = true
  · exact H.handle_full clk hs hF
  · rw [handle_other cf clk (by cases h : g.type <;> simp_all [GType.isFrag, GType.isFull, GType.isOther])]
    exact hs

end

theorem Closed.handle {P : GState → Prop} (H : Closed cf P) (clk : Clock) {s : GState} (g : GossipObj) (hs : P s) :
    P (handle cf clk s g).1 := (H.hclosed cf).handle clk g hs

/-- Properties closed under everything a sequential gossiper does. -/
structure SeqClosed (P : GState → Prop) : Prop extends HClosed cf P where
  received : ∀ s n, P s → P { s with trafficReceived := s.trafficReceived + n }
  payload : ∀ s g, P s → g.type = .REV_INIT → g.verify cf.crypto = .ok →
    P { s with storage := { s.storage with revPayload := s.storage.revPayload.set g.getID g } }
  ask : ∀ s n x, P s → P (notificationHandler cf n s x)
  answer : ∀ s n x, P s → P (requestHandler cf n s x)
  disarm : ∀ s i, P s → P { s with timers := s.timers.eraseIdx i }
  crash : ∀ s, P s → P { s with crashed := true }

/-- Events other than the wipe. -/
theorem SeqClosed.recv {P : GState → Prop} (H : SeqClosed cf P) (clk : Clock) (n : Int) {s : GState} (g : GossipObj)
    (hs : P s) : P (gossipObjectHandler cf clk n s g).1 := by
  unfold gossipObjectHandler
  simp only
  have h1 := H.received s n hs
  generalize hs0 : ({ s with trafficReceived := s.trafficReceived + n } : GState) = s0 at *
  by_cases hc : n > cf.optThreshold ∧ g.type = .REV_INIT
  · simp only [hc, and_self, if_true]
    rcases hsv : savePayload cf s0 g with ⟨s1, b⟩
    have h2 : P s1 := by
      have := savePayload_eq cf s0 g
      rw [hsv] at this
      rcases this with h | ⟨hv, h⟩
      · dsimp only at h; rw [h]; exact h1
      · dsimp only at h; rw [h]; exact H.payload s0 g h1 hc.2 hv
    cases b
    · exact h2
    · exact H.toHClosed.handle clk _ h2
  · rw [if_neg hc]
    exact H.toHClosed.handle clk _ h1

theorem SeqClosed.fire {P : GState → Prop} (H : SeqClosed cf P) (clk : Clock) {s : GState} (g : GossipObj)
    (ht : g.type.isInit = true) (hs : P s) : P (timerFire cf clk s g).1 := by
  unfold timerFire
  split
  · exact hs
  · rename_i hb
    unfold signStatement
    cases hg : generateFRAG cf g with
    | none => exact hs
    | some f => exact H.toHClosed.handle clk _ (H.signed _ g f hs ht hg (by simpa using hb))

theorem GReach.storageInv {s : GState} (h : GReach cf s) : StorageInv cf s.storage := by
  obtain ⟨c, ⟨hist, rfl⟩, rfl, _⟩ := h.toConc
  exact ((mainInv cf).holds cf hist).1.storage

theorem GReach.timers {s : GState} (h : GReach cf s) : ∀ g ∈ s.timers, g.type = .STH_INIT ∨ g.type = .REV_INIT := by
  obtain ⟨c, ⟨hist, rfl⟩, rfl, _⟩ := h.toConc
  exact fun g hg => (((mainInv cf).holds cf hist).1.timers g hg).1

theorem GReach.timersInit {s : GState} (h : GReach cf s) : ∀ g ∈ s.timers, g.type.isInit = true := by
  intro g hg
  rcases h.timers cf g hg with h | h <;> simp [h, GType.isInit]

theorem SeqClosed.step {P : GState → Prop} (H : SeqClosed cf P) {s : GState} (hr : GReach cf s) (e : Clock × GOp)
    (he : e.2 ≠ .periodic) (hs : P s) : P (gstep cf s e) := by
  obtain ⟨clk, op⟩ := e
  unfold gstep
  split
  · exact hs
  · cases op with
    | recv n o => exact H.recv cf clk n o hs
    | notify n x => exact H.ask s n x hs
    | request n x => exact H.answer s n x hs
    | periodic => exact absurd rfl he
    | fire i =>
      simp only
      cases ht : s.timers[i]? with
      | none => exact hs
      | some o =>
        simp only
        have h1 := H.fire cf clk o (hr.timersInit cf o (List.mem_of_getElem? ht)) (H.disarm s i hs)
        rcases hr : timerFire cf clk { s with timers := s.timers.eraseIdx i } o with ⟨s', b⟩
        rw [hr] at h1
        cases b
        · exact h1
        · exact H.crash _ h1

theorem SeqClosed.run {P : GState → Prop} (H : SeqClosed cf P) {s : GState} (hr : GReach cf s) (h : List (Clock × GOp))
    (he : ∀ e ∈ h, e.2 ≠ .periodic) (hs : P s) : P (grun cf s h) := by
  induction h generalizing s with
  | nil => exact hs
  | cons e t ih => exact ih (hr.step cf e) (fun e' h' => he e' (by simp [h'])) (H.step cf hr e (he e (by simp)) hs)

theorem SeqClosed.reach {P : GState → Prop} (H : SeqClosed cf P) (h0 : P GState.init)
    (hw : ∀ clk s, P s → P (periodicTask clk s)) {s : GState} (h : GReach cf s) : P s := by
  refine (h.induct cf (P := fun s => GReach cf s ∧ P s) ⟨GReach.init cf, h0⟩ ?_).2
  rintro s e ⟨hr, hs⟩
  refine ⟨hr.step cf e, ?_⟩
  by_cases he : e.2 = .periodic
  · obtain ⟨clk, op⟩ := e
    dsimp only at he; subst he
    unfold gstep
    split
    · exact hs
    · exact hw clk s hs
  · exact H.step cf hr e he hs

/-! ### The state after a store -/

@[simp] theorem storage_storedState (clk : Clock) (s : GState) (g : GossipObj) :
    (storedState cf clk s g).storage = s.storage.putObj g.type g.getID g := by simp [storedState]

@[simp] theorem out_storedState (clk : Clock) (s : GState) (g : GossipObj) : (storedState cf clk s g).out = s.out := by
  simp [storedState]

@[simp] theorem timers_addBlacklist (s : GState) (x : Str) : (addBlacklist s x).timers = s.timers := by
  unfold addBlacklist; split <;> rfl
@[simp] theorem timers_storeBlacklist (s : GState) (g : GossipObj) : (storeBlacklist s g).timers = s.timers := by
  unfold storeBlacklist; split <;> simp
@[simp] theorem timers_storeNote (clk : Clock) (s : GState) (g : GossipObj) : (storeNote cf clk s g).timers = s.timers := by
  unfold storeNote noteInitConverge; split <;> (try split) <;> rfl
@[simp] theorem timers_noteConverge (clk : Clock) (s : GState) : (noteConverge cf clk s).timers = s.timers := by
  unfold noteConverge; split <;> rfl
@[simp] theorem timers_sendToGossipers (s : GState) (g : GossipObj) : (sendToGossipers cf s g).timers = s.timers := by
  unfold sendToGossipers; simp only; split <;> rfl
@[simp] theorem timers_storedState (clk : Clock) (s : GState) (g : GossipObj) :
    (storedState cf clk s g).timers = s.timers := by simp [storedState]

@[simp] theorem blacklist_storeNote (clk : Clock) (s : GState) (g : GossipObj) :
    (storeNote cf clk s g).blacklist = s.blacklist := by
  unfold storeNote noteInitConverge; split <;> (try split) <;> rfl
@[simp] theorem blacklist_noteConverge (clk : Clock) (s : GState) : (noteConverge cf clk s).blacklist = s.blacklist := by
  unfold noteConverge; split <;> rfl
@[simp] theorem blacklist_sendToGossipers (s : GState) (g : GossipObj) :
    (sendToGossipers cf s g).blacklist = s.blacklist := by
  unfold sendToGossipers; simp only; split <;> rfl

theorem blacklist_addBlacklist_has (s : GState) (x y : Str) :
    (addBlacklist s x).blacklist.has y = (s.blacklist.has y || decide (y = x)) := by
  unfold addBlacklist
  split
  · rename_i h
    by_cases e : y = x
    · subst e; simp only [inBlacklist] at h; simp [h]
    · simp [e]
  · simp only [GoMap.has_set, Bool.or_comm]

theorem blacklist_storedState (clk : Clock) (s : GState) (g : GossipObj) (x : Str) :
    (storedState cf clk s g).blacklist.has x =
      (s.blacklist.has x || (decide (g.type = .CON_INIT ∨ g.type = .ACC_FULL) && decide (x = g.payload.p0))) := by
  unfold storedState
  rw [blacklist_storeNote]
  unfold storeBlacklist
  cases h : g.type <;> simp [blacklist_addBlacklist_has]

@[simp] theorem storage_emit (s : GState) (o : List Out) : (s.emit o).storage = s.storage := rfl
@[simp] theorem blacklist_emit (s : GState) (o : List Out) : (s.emit o).blacklist = s.blacklist := rfl
@[simp] theorem timers_emit (s : GState) (o : List Out) : (s.emit o).timers = s.timers := rfl
@[simp] theorem out_emit (s : GState) (o : List Out) : (s.emit o).out = s.out ++ o := rfl
@[simp] theorem storage_sendToMonitor (s : GState) (g : GossipObj) : (sendToMonitor s g).storage = s.storage := rfl
@[simp] theorem blacklist_sendToMonitor (s : GState) (g : GossipObj) : (sendToMonitor s g).blacklist = s.blacklist := rfl
@[simp] theorem timers_sendToMonitor (s : GState) (g : GossipObj) : (sendToMonitor s g).timers = s.timers := rfl
@[simp] theorem out_sendToMonitor (s : GState) (g : GossipObj) : (sendToMonitor s g).out = s.out ++ [.owner g] := rfl

@[simp] theorem storage_notificationHandler (n : Int) (s : GState) (x : Notification) :
    (notificationHandler cf n s x).storage = s.storage := by
  unfold notificationHandler; simp only; split <;> rfl
@[simp] theorem storage_requestHandler (n : Int) (s : GState) (x : Notification) :
    (requestHandler cf n s x).storage = s.storage := by
  unfold requestHandler; simp only; split <;> rfl
@[simp] theorem blacklist_notificationHandler (n : Int) (s : GState) (x : Notification) :
    (notificationHandler cf n s x).blacklist = s.blacklist := by
  unfold notificationHandler; simp only; split <;> rfl
@[simp] theorem blacklist_requestHandler (n : Int) (s : GState) (x : Notification) :
    (requestHandler cf n s x).blacklist = s.blacklist := by
  unfold requestHandler; simp only; split <;> rfl

/-- Properties of storage and blacklist only. -/
theorem FineClosed.core {P : GState → Prop} (hP : ∀ s s' : GState, s.storage = s'.storage → s.blacklist = s'.blacklist → P s → P s')
    (store : ∀ clk s g, P s → g.type.isObj = true → g.verify cf.crypto = .ok → dupCheck s g = false →
      inBlacklist s g.payload.p0 = false →
      (g.type.isFull = true ∨ g.type = .CON_INIT → itemCount s g.getID g.type = 0) → P (storedState cf clk s g))
    (frag : ∀ s g, P s → g.type.isFrag = true → dupCheck s g = false → inBlacklist s g.payload.p0 = false →
      ((s.storage.fragList g.type g.getID).length : Int) < cf.crypto.threshold →
      P { s with storage := s.storage.appendFrag g.type g.getID g })
    (payload : ∀ s g, P s → g.type = .REV_INIT → g.verify cf.crypto = .ok →
      P { s with storage := { s.storage with revPayload := s.storage.revPayload.set g.getID g } }) : SeqClosed cf P where
  toHClosed := Closed.hclosed cf (FineClosed.closed cf {
    store := store
    frag := frag
    peers := fun s g hs => hP s _ (by simp) (by simp) hs
    owner := fun s g hs => hP s _ (by simp) (by simp) hs
    signed := fun s f hs => hP s _ (by simp) (by simp) hs
    gen := fun s k o hs => hP s _ (by simp) (by simp) hs
    arm := fun s g hs => hP s _ rfl rfl hs
    note := fun clk s hs => hP s _ (by simp) (by simp) hs })
  received := fun s n hs => hP s _ rfl rfl hs
  payload := payload
  ask := fun s n x hs => hP s _ (by simp) (by simp) hs
  answer := fun s n x hs => hP s _ (by simp) (by simp) hs
  disarm := fun s i hs => hP s _ rfl rfl hs
  crash := fun s hs => hP s _ rfl rfl hs

@[simp] theorem storage_save (clk : Clock) (s : GState) : (save clk s).storage = s.storage := by
  unfold save; simp only; split <;> rfl
@[simp] theorem blacklist_save (clk : Clock) (s : GState) : (save clk s).blacklist = s.blacklist := by
  unfold save; simp only; split <;> rfl
@[simp] theorem storage_periodicTask (clk : Clock) (s : GState) :
    (periodicTask clk s).storage = { Storage.init with conInit := s.storage.conInit } := by
  simp [periodicTask, wipeStorage]
@[simp] theorem blacklist_periodicTask (clk : Clock) (s : GState) : (periodicTask clk s).blacklist = s.blacklist := by
  simp [periodicTask, wipeStorage]

/-! ### Facts about reachable sequential states -/

/-- Whoever a held conflict proof names is blacklisted. -/
theorem GReach.conBlacklisted {s : GState} (h : GReach cf s) :
    ∀ k o, s.storage.conInit.get k = some o → s.blacklist.has o.payload.p0 = true := by
  refine SeqClosed.reach cf (P := fun s => ∀ k o, s.storage.conInit.get k = some o → s.blacklist.has o.payload.p0 = true)
    (FineClosed.core cf ?_ ?_ ?_ ?_) ?_ ?_ h
  · intro s s' h1 h2 hs; rw [← h1, ← h2]; exact hs
  · intro clk s g hs ht hv hd hb hc k o ho
    rw [storage_storedState] at ho
    rw [blacklist_storedState]
    by_cases e : g.type = .CON_INIT
    · have := Storage.objs_putObj_same s.storage g.type g.getID g ht
      rw [e] at this ho
      change (s.storage.putObj .CON_INIT g.getID g).conInit = s.storage.conInit.set g.getID g at this
      rw [this, GoMap.get_set] at ho
      split at ho
      · cases ho; simp [e]
      · simp [hs k o ho]
    · have := Storage.objs_putObj_ne s.storage g.getID g (t' := .CON_INIT) (t := g.type) (Ne.symm e)
      change (s.storage.putObj g.type g.getID g).conInit = s.storage.conInit at this
      rw [this] at ho
      simp [hs k o ho]
  · intro s g hs ht _ _ _ k o ho
    have := Storage.objs_appendFrag s.storage g.type .CON_INIT g.getID g
    change (s.storage.appendFrag g.type g.getID g).conInit = s.storage.conInit at this
    exact hs k o (by rw [← this]; exact ho)
  · intro s g hs _ _; exact hs
  · intro k o ho; simp [GState.init, Storage.init] at ho
  · intro clk s hs k o ho
    simp at ho ⊢
    exact hs k o ho

/-- Fragments kept for one statement have pairwise different signature pairs. -/
theorem GReach.fragsDistinct {s : GState} (h : GReach cf s) (t : GType) (k : GossipID) :
    (s.storage.fragList t k).Pairwise fun a b => a.sig ≠ b.sig := by
  revert t k
  refine SeqClosed.reach cf (P := fun s => ∀ t k, (s.storage.fragList t k).Pairwise fun a b => a.sig ≠ b.sig)
    (FineClosed.core cf ?_ ?_ ?_ ?_) ?_ ?_ h
  · intro s s' h1 _ hs; rw [← h1]; exact hs
  · intro clk s g hs ht hv hd hb hc t k
    simpa using hs t k
  · intro s g hs ht hd _ _ t k
    by_cases e : t = g.type ∧ k = g.getID
    · obtain ⟨rfl, rfl⟩ := e
      simp only [Storage.fragList_appendFrag_same _ _ _ _ ht]
      rw [List.pairwise_append]
      refine ⟨hs _ _, by simp, ?_⟩
      intro a ha b hb
      simp at hb; subst hb
      intro e
      have : dupCheck s b = true := by
        unfold dupCheck
        cases hb' : b.type <;> simp_all [GType.isFrag] <;> exact ⟨a, ha, e⟩
      rw [this] at hd; cases hd
    · have e' : t ≠ g.type ∨ k ≠ g.getID := by by_cases h1 : t = g.type <;> simp_all
      simp only [Storage.fragList_appendFrag_ne _ _ e']
      exact hs t k
  · intro s g hs _ _ t k; have := hs t k; cases t <;> exact this
  · intro t k; simp [GState.init]
  · intro clk s hs t k
    rw [storage_periodicTask]
    cases t <;> exact List.Pairwise.nil

end CTng
