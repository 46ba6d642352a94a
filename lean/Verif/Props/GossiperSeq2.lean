import Verif.Props.GossiperSeq
/- C20, C21, C23, C24, C25, C26 (second half), C28, C29, C36. -/
set_option autoImplicit false

namespace CTng
variable {L : Lib}

/-! ### Case analyses -/

theorem handle_con_cases (cf : GConf L) (clk : Clock) (s : GState) (c : GossipObj) (ht : c.type = .CON_INIT) :
    (handle cf clk s c).1 = s ∨
    (c.verify cf.crypto = .ok ∧ s.blacklist.has c.payload.p0 = false ∧ dupCheck s c = false ∧
      handle cf clk s c = (sendToMonitor (sendToGossipers cf (storedState cf clk s c) c) c, false)) := by
  rw [handle_con cf clk ht]
  split
  · exact .inl rfl
  · rename_i hd
    split
    · exact .inl rfl
    · rename_i hb
      unfold handleCon
      split
      · rcases storeGossipObject_cases cf clk s c (by simp [ht, GType.isObj]) (by simpa using hd) with
          ⟨_, h⟩ | ⟨_, h⟩ | ⟨hv, h⟩
        · simp only [h]; exact .inl trivial
        · simp only [h]; exact .inl trivial
        · simp only [h]; exact .inr ⟨hv, by simpa [inBlacklist] using hb, by simpa using hd, trivial⟩
      · exact .inl rfl

theorem handle_sthrev_cases (cf : GConf L) (clk : Clock) (s : GState) (g : GossipObj)
    (ht : g.type = .STH_INIT ∨ g.type = .REV_INIT) :
    (handle cf clk s g).1 = s ∨
    (isMalicious s g = true ∧ handle cf clk s g = handle cf clk s (generateCON clk (getObject s g.getID g.type) g)) ∨
    (g.verify cf.crypto = .ok ∧ s.blacklist.has g.payload.p0 = false ∧ dupCheck s g = false ∧ isMalicious s g = false ∧
      handle cf clk s g =
        ({ sendToMonitor (sendToGossipers cf (storedState cf clk s g) g) g with timers := s.timers ++ [g] }, false)) := by
  have hobj : g.type.isObj = true := by rcases ht with h | h <;> simp [h, GType.isObj]
  rw [handle_sthrev cf clk ht]
  split
  · exact .inl rfl
  · rename_i hd
    split
    · exact .inl rfl
    · rename_i hb
      unfold handleInit
      split
      · exact .inl rfl
      · split
        · exact .inl rfl
        · split
          · rename_i hm; exact .inr (.inl ⟨hm, rfl⟩)
          · rename_i hm
            rcases storeGossipObject_cases cf clk s g hobj (by simpa using hd) with ⟨_, h⟩ | ⟨_, h⟩ | ⟨hv, h⟩
            · simp only [h]; exact .inl trivial
            · simp only [h]; exact .inl trivial
            · simp only [h]
              refine .inr (.inr ⟨hv, by simpa [inBlacklist] using hb, by simpa using hd, by simpa using hm, ?_⟩)
              simp

theorem handle_full_cases (cf : GConf L) (clk : Clock) (s : GState) (g : GossipObj) (ht : g.type.isFull = true) :
    (handle cf clk s g).1 = s ∨ (handle cf clk s g).1 = noteConverge cf clk s ∨
    (g.verify cf.crypto ≠ .ok ∧ handle cf clk s g = (noteConverge cf clk (sendToMonitor s g), false)) ∨
    (g.verify cf.crypto = .ok ∧ s.blacklist.has g.payload.p0 = false ∧ itemCount s g.getID g.type = 0 ∧
      handle cf clk s g = (noteConverge cf clk (sendToMonitor (storedState cf clk s g) g), false)) := by
  have hobj : g.type.isObj = true := by cases h : g.type <;> simp_all [GType.isFull, GType.isObj]
  rw [handle_full cf clk ht]
  split
  · exact .inl rfl
  · rename_i hd
    split
    · exact .inl rfl
    · rename_i hb
      unfold handleFull
      rw [if_neg hb]
      split
      · rename_i hc
        rcases storeGossipObject_cases cf clk s g hobj (by simpa using hd) with ⟨_, h⟩ | ⟨⟨e, he⟩, h⟩ | ⟨hv, h⟩
        · simp only [h]; exact .inl trivial
        · simp only [h]; exact .inr (.inr (.inl ⟨by simp [he], trivial⟩))
        · simp only [h]; exact .inr (.inr (.inr ⟨hv, by simpa [inBlacklist] using hb, hc, trivial⟩))
      · exact .inr (.inl rfl)

/-- The FULL objects another gossiper makes from the fragments of two signers. -/
def Ref.fullOf (a b : Str) : GossipObj :=
  ((grun Ref.gconf GState.init [(Ref.clk, .recv 10 (Ref.frag a)), (Ref.clk, .recv 10 (Ref.frag b))]).storage.sthFull.get
    ⟨go!"05", .STH_FULL, go!"L1"⟩).getD .zero

/-! ### C21 -/

/-- C21 for a gossiper that handles one message at a time: kept fragments have pairwise different signatures. -/
theorem C21_fragments_counted_once_partial (cf : GConf L) (s : GState) (hs : GReach cf s) (k : GossipID)
    (l : List GossipObj) (t : GType) (h : FragsAt s.storage k l t) : l.Pairwise fun a b => a.sig ≠ b.sig := by
  have := hs.fragsDistinct cf t k
  rw [h.fragList] at this
  exact this

/-- The same fragment arrives twice at once. -/
def Ref.twice : List (Clock × CEvent) :=
  [(Ref.clk, .recv 10 (Ref.frag (go!"G2"))), (Ref.clk, .recv 10 (Ref.frag (go!"G2")))] ++
    (List.replicate 30 [(Ref.clk, .run 0), (Ref.clk, .run 1)]).flatten

/-- C21 fails for concurrent delivery: both handlers pass the duplicate check before either stores, and one gossiper's
fragment fills both places of a threshold of 2, which is then aggregated into a FULL object and sent to the owner. -/
theorem C21_violated_concurrent_redelivery :
    FragsAt (crun Ref.gconf CState.init Ref.twice).g.storage (Ref.frag (go!"G2")).getID
      [Ref.frag (go!"G2"), Ref.frag (go!"G2")] .STH_FRAG ∧
    Ref.gconf.crypto.threshold = 2 ∧
    ∃ f, f.type = .STH_FULL ∧ f.verify Ref.gconf.crypto = .ok ∧ f.signers = [go!"G2", go!"G2"] ∧
      .owner f ∈ (crun Ref.gconf CState.init Ref.twice).g.out := by
  refine ⟨.sth (by decide +kernel), rfl, ?_⟩
  exact ⟨((crun Ref.gconf CState.init Ref.twice).g.storage.sthFull.get ⟨go!"05", .STH_FULL, go!"L1"⟩).getD .zero,
    by decide +kernel, by decide +kernel, by decide +kernel, by decide +kernel⟩

example : ∃ s, GReach Ref.gconf s ∧ FragsAt s.storage (Ref.frag (go!"G2")).getID
    [Ref.frag (go!"G2"), Ref.frag (go!"G3")] .STH_FRAG :=
  ⟨grun Ref.gconf GState.init [(Ref.clk, .recv 10 (Ref.frag (go!"G2"))), (Ref.clk, .recv 10 (Ref.frag (go!"G2"))),
    (Ref.clk, .recv 10 (Ref.frag (go!"G3")))], ⟨_, rfl⟩, .sth (by decide +kernel)⟩

/-! ### C23 -/

/-- C23 fails: an STH_INIT or REV_INIT that verifies, whose entity is not blacklisted and for which no INIT is held, is
stored, forwarded to everybody and scheduled for signing, whatever FULL objects and fragments the gossiper holds. (The
code looks FULL objects and fragments up under the INIT type, where they never are.) -/
theorem C23_violated_init_always_accepted (cf : GConf L) (hT : 0 < cf.crypto.threshold) (s : GState) (hs : GReach cf s)
    (g : GossipObj) (ht : g.type = .STH_INIT ∨ g.type = .REV_INIT) (hv : g.verify cf.crypto = .ok)
    (hb : s.blacklist.has g.payload.p0 = false) (hno : ∀ o, ¬ HeldAs s.storage g.getID o g.type) (hsg : g.signer ≠ [])
    (clk : Clock) (n : Int) :
    let s' := (gossipObjectHandler cf clk n s g).1
    HeldAs s'.storage g.getID g g.type ∧ s'.out = s.out ++ Broadcast cf g ∧ s'.timers = s.timers ++ [g] := by
  have hobj : g.type.isObj = true := by rcases ht with h | h <;> simp [h, GType.isObj]
  have hnone : (s.storage.objs g.type).get g.getID = none := by
    cases h : (s.storage.objs g.type).get g.getID with
    | none => rfl
    | some o => exact absurd (heldAs_iff.2 h) (hno o)
  rw [recv_verified cf clk n s g (by rcases ht with h | h <;> simp [h]) hv]
  have hm : isMalicious (recvState cf n s g) g = false := by
    unfold isMalicious getObject
    rcases ht with h | h <;> rw [h] at hnone ⊢ <;> simp [hnone, GossipObj.zero, hsg]
  rw [handle_init_new cf clk (recvState cf n s g) g (recvState_inv cf n s g (hs.storageInv cf) hv) hT ht hv
    (dupCheck_false_of_none hobj (by simpa using hnone)) (by simpa using hb) hm]
  refine ⟨heldAs_iff.2 ?_, ?_, ?_⟩
  · simp [Storage.objs_putObj_same _ _ _ _ hobj]
  · have := broadcast_out cf (storedState cf clk (recvState cf n s g) g) g (by rcases ht with h | h <;> simp [h])
    simp only [out_storedState, recvState_out] at this
    exact this
  · simp

/-- A gossiper that holds the FULL object and Threshold fragments for L1 in period "5", and no STH_INIT. -/
def Ref.haveFull : List (Clock × GOp) :=
  [({ Ref.clk with period := go!"5" }, .recv 10 (Ref.frag (go!"G2"))),
   ({ Ref.clk with period := go!"5" }, .recv 10 (Ref.frag (go!"G3")))]

example : ∃ s f, GReach Ref.gconf s ∧ HeldAs s.storage ⟨go!"5", .STH_FULL, go!"L1"⟩ f .STH_FULL ∧
    FragsAt s.storage (Ref.frag (go!"G2")).getID [Ref.frag (go!"G2"), Ref.frag (go!"G3")] .STH_FRAG ∧
    s.blacklist.has (go!"L1") = false ∧ Ref.sth.verify Ref.gconf.crypto = .ok ∧
    s.storage.sthInit.get Ref.sth.getID = none :=
  ⟨grun Ref.gconf GState.init Ref.haveFull,
    ((grun Ref.gconf GState.init Ref.haveFull).storage.sthFull.get ⟨go!"5", .STH_FULL, go!"L1"⟩).getD .zero, ⟨_, rfl⟩,
    .sthFull (by decide +kernel), .sth (by decide +kernel), by decide +kernel, by decide +kernel, by decide +kernel⟩

/-- C23, what holds: an INIT object is ignored if an INIT object with the same signatures is already held. -/
theorem C23_same_init_ignored_partial (cf : GConf L) (s : GState) (g o : GossipObj)
    (ht : g.type = .STH_INIT ∨ g.type = .REV_INIT ∨ g.type = .ACC_INIT) (held : HeldAs s.storage g.getID o g.type)
    (hsig : o.sig = g.sig) (clk : Clock) (n : Int) (hn : ¬ (n > cf.optThreshold ∧ g.type = .REV_INIT)) :
    gossipObjectHandler cf clk n s g = ({ s with trafficReceived := s.trafficReceived + n }, false) := by
  have hobj : g.type.isObj = true := by rcases ht with h | h | h <;> simp [h, GType.isObj]
  rw [recv_eq cf clk n s g (by rcases ht with h | h | h <;> simp [h]), if_neg hn, handle_apply, dispatch,
    if_pos (by exact (dupCheck_obj (s := s) hobj).2 ⟨o, heldAs_iff.1 held, hsig⟩)]

/-! ### C24 -/

theorem objs_handle_con (cf : GConf L) (clk : Clock) (s : GState) (c : GossipObj) (hc : c.type = .CON_INIT) (t : GType)
    (ht : t ≠ .CON_INIT) : (handle cf clk s c).1.storage.objs t = s.storage.objs t := by
  rcases handle_con_cases cf clk s c hc with h | ⟨_, _, _, h⟩
  · rw [h]
  · rw [h]
    simp only [storage_sendToMonitor, storage_sendToGossipers, storage_storedState]
    exact Storage.objs_putObj_ne _ _ _ (by rw [hc]; exact ht)

theorem recv_cases (cf : GConf L) (clk : Clock) (n : Int) (s : GState) (g : GossipObj)
    (h : ¬ (cf.optMode = true ∧ g.type = .REV_FRAG)) :
    ∃ s0, (gossipObjectHandler cf clk n s g = handle cf clk s0 g ∨ gossipObjectHandler cf clk n s g = (s0, true)) ∧
      (∀ t, s0.storage.objs t = s.storage.objs t) ∧ (∀ t k, s0.storage.fragList t k = s.storage.fragList t k) ∧
      s0.blacklist = s.blacklist ∧ s0.out = s.out ∧ s0.timers = s.timers ∧ (g.type ≠ .REV_INIT → s0.storage = s.storage) ∧
      (∀ cf' : GConf L, cf' = cf → StorageInv cf s.storage → StorageInv cf s0.storage) := by
  by_cases hv : g.verify cf.crypto = .ok
  · refine ⟨recvState cf n s g, .inl (recv_verified cf clk n s g h hv), by simp, by simp, by simp, by simp, by simp, ?_, ?_⟩
    · intro hr; unfold recvState; rw [if_neg (by simp [hr])]
    · intro _ _ H; exact recvState_inv cf n s g H hv
  · refine ⟨{ s with trafficReceived := s.trafficReceived + n }, ?_, fun _ => rfl, fun _ _ => rfl, rfl, rfl, rfl,
      fun _ => rfl, fun _ _ H => H⟩
    rw [recv_eq cf clk n s g h]
    split
    · cases hv' : g.verify cf.crypto with
      | ok => exact absurd hv' hv
      | err e => exact .inl rfl
      | panic => exact .inr rfl
    · exact .inl rfl

/-- C24. If handling an STH_INIT, REV_INIT or CON_INIT stores it (it is held afterwards, and nothing with its signatures
was held before), then exactly this happens on the network: every connected gossiper is sent it (or, if it is a large
revocation, its notification) once, and the owner monitor once. -/
theorem C24_stored_is_broadcast_once (cf : GConf L) (clk : Clock) (n : Int) (s : GState) (g : GossipObj)
    (ht : g.type = .STH_INIT ∨ g.type = .REV_INIT ∨ g.type = .CON_INIT)
    (after : HeldAs (gossipObjectHandler cf clk n s g).1.storage g.getID g g.type)
    (before : ∀ o, HeldAs s.storage g.getID o g.type → o.sig ≠ g.sig) :
    (gossipObjectHandler cf clk n s g).1.out = s.out ++ Broadcast cf g ∧ (gossipObjectHandler cf clk n s g).2 = false := by
  have hnf : g.type ≠ .REV_FRAG := by rcases ht with h | h | h <;> simp [h]
  obtain ⟨s0, hh, ho, -, -, hout, -, -, -⟩ := recv_cases cf clk n s g (fun x => hnf x.2)
  have notheld : (s0.storage.objs g.type).get g.getID ≠ some g := by
    intro h; rw [ho] at h; exact before g (heldAs_iff.2 h) rfl
  rw [heldAs_iff] at after
  rcases hh with hh | hh
  · rw [hh] at after ⊢
    by_cases hc : g.type = .CON_INIT
    · rcases handle_con_cases cf clk s0 g hc with h | ⟨_, _, _, h⟩
      · rw [h] at after; exact absurd after notheld
      · rw [h, broadcast_out cf _ _ hnf]; simp [hout]
    · have ht' : g.type = .STH_INIT ∨ g.type = .REV_INIT := by
        rcases ht with h | h | h
        · exact .inl h
        · exact .inr h
        · exact absurd h hc
      rcases handle_sthrev_cases cf clk s0 g ht' with h | ⟨_, h⟩ | ⟨_, _, _, _, h⟩
      · rw [h] at after; exact absurd after notheld
      · rw [h, objs_handle_con cf clk s0 _ rfl _ hc] at after; exact absurd after notheld
      · rw [h]
        have := broadcast_out cf (storedState cf clk s0 g) g hnf
        simp only [out_storedState, hout] at this
        exact ⟨this, rfl⟩
  · rw [hh] at after; exact absurd after notheld

example : HeldAs (gossipObjectHandler Ref.gconf Ref.clk 10 GState.init Ref.sth).1.storage Ref.sth.getID Ref.sth .STH_INIT ∧
    ∀ o, ¬ HeldAs GState.init.storage Ref.sth.getID o .STH_INIT := by
  refine ⟨heldAs_iff.2 (by decide +kernel), ?_⟩
  intro o h; rw [heldAs_iff] at h; simp [GState.init] at h

/-- Only types that may be sent are sent. -/
def Out.typed : Out → Prop
  | .peer _ _ (.obj o) => o.type.toPeers = true
  | .owner o => o.type.toOwner = true
  | _ => True

theorem outTyped (cf : GConf L) : HInv cf (fun _ s => (∀ g ∈ s.timers, g.type.isInit = true) ∧ ∀ x ∈ s.out, x.typed) (fun _ _ f => f.wt) where
  init := by simp [GState.init]
  step := by
    intro h clk i s f hs hcr hq hf ht r h'
    refine ⟨⟨?_, ?_⟩, fun f' hf' => hf', wt_new cf clk s.g f hf⟩
    · rcases stepFrame_timers cf clk s.g f with h1 | ⟨g, rfl, h1⟩
      · rw [h1]; exact hq.1
      · intro g' hg'
        rw [h1] at hg'
        rcases List.mem_append.1 hg' with h2 | h2
        · exact hq.1 g' h2
        · simp at h2; subst h2
          rcases hf with h | h <;> simp [h, GType.isInit]
    intro x hx
    obtain ⟨o, ho, he⟩ := stepFrame_out cf clk s.g f
    rw [he] at hx
    rcases List.mem_append.1 hx with hx | hx
    · exact hq.2 x hx
    · have hst := ((mainInv cf).holds cf h).1.storage
      rw [hs] at hst
      cases ho with
      | none => cases hx
      | signed g f hg => simp at hx; subst hx; trivial
      | full g o hg => simp at hx; subst hx; trivial
      | owner g => simp at hx; subst hx; exact hf
      | announce g h1 h2 => simp at hx; obtain ⟨u, _, rfl⟩ := hx; trivial
      | forward g g' e h1 =>
        simp at hx; obtain ⟨u, _, rfl⟩ := hx
        have : g'.type = g.type := by rw [e]; split <;> rfl
        simp only [Out.typed, this]; exact hf
      | ask n x' => simp at hx; subst hx; trivial
      | answer n x' o e hp =>
        simp at hx; subst hx
        simp only [Out.typed]
        unfold getREVrequested at e
        cases hg : s.g.storage.revPayload.get { period := x'.period, type := .REV_INIT, entity := x'.entity } with
        | none => simp only [hg, Option.getD_none] at e; rw [e] at hp; exact absurd rfl hp
        | some o' =>
          simp only [hg, Option.getD_some] at e
          rw [e, (hst.payload _ _ hg).2.1]; rfl
  crash := fun _ _ hq => ⟨hq, fun _ hf => hf⟩
  idle := fun _ _ _ hq => ⟨hq, fun _ hf => hf⟩
  spawnRecv := fun _ _ _ _ _ _ => trivial
  spawn := fun _ _ _ => ⟨fun _ _ => trivial, fun _ _ => trivial, trivial, trivial⟩
  fire := by
    intro h s i o hq ho
    exact ⟨⟨fun g hg => hq.1 g (List.mem_of_mem_eraseIdx hg), hq.2⟩, hq.1 o (List.mem_of_getElem? ho), fun _ hf => hf⟩

/-- C24. Under every schedule, no ACC_INIT is ever sent to another gossiper or to the owner. -/
theorem C24_accusations_are_not_forwarded (cf : GConf L) (c : CState) (hc : CReach cf c) (g : GossipObj)
    (ht : g.type = .ACC_INIT) : ∀ x ∈ c.g.out, ¬ x.carries g := by
  obtain ⟨h, rfl⟩ := hc
  intro x hx hcar
  have := ((outTyped cf).holds cf h).1.2 x hx
  unfold Out.carries at hcar
  split at hcar
  · subst hcar; simp [Out.typed, ht, GType.toPeers] at this
  · subst hcar; simp [Out.typed, ht, GType.toOwner] at this
  · exact hcar

/-- C24. A statement that is held is not sent again when it arrives again. -/
theorem C24_redelivery_is_silent (cf : GConf L) (clk : Clock) (n : Int) (s : GState) (g o : GossipObj)
    (ht : g.type = .STH_INIT ∨ g.type = .REV_INIT ∨ g.type = .CON_INIT) (held : HeldAs s.storage g.getID o g.type)
    (hsig : o.sig = g.sig) : (gossipObjectHandler cf clk n s g).1.out = s.out := by
  have hobj : g.type.isObj = true := by rcases ht with h | h | h <;> simp [h, GType.isObj]
  obtain ⟨s0, hh, ho, -, -, hout, -, -, -⟩ :=
    recv_cases cf clk n s g (fun x => by rcases ht with h | h | h <;> rw [h] at x <;> cases x.2)
  rcases hh with hh | hh
  · rw [hh, handle_apply, dispatch, if_pos ((dupCheck_obj hobj).2 ⟨o, by rw [ho]; exact heldAs_iff.1 held, hsig⟩)]
    exact hout
  · rw [hh]; exact hout

/-! ### C25 -/

/-- C25 for INIT objects and conflict proofs: an object that fails verification is not stored, arms no timer and is sent
to nobody. (An invalid STH_INIT may still lead to a conflict proof being sent; that is another object.) Missing:
fragments and FULL objects, see below. -/
theorem C25_invalid_inits_dropped_partial (cf : GConf L) (clk : Clock) (n : Int) (s : GState) (g : GossipObj)
    (ht : g.type = .STH_INIT ∨ g.type = .REV_INIT ∨ g.type = .ACC_INIT ∨ g.type = .CON_INIT)
    (hv : g.verify cf.crypto ≠ .ok) :
    let s' := (gossipObjectHandler cf clk n s g).1
    (∃ new, s'.out = s.out ++ new ∧ ∀ x ∈ new, ¬ x.carries g) ∧ s'.timers = s.timers ∧
    s'.storage.objs g.type = s.storage.objs g.type ∧ s'.storage.revPayload = s.storage.revPayload := by
  have hnf : ¬ (cf.optMode = true ∧ g.type = .REV_FRAG) := by rcases ht with h | h | h | h <;> simp [h]
  have hs0 : ∃ s0 : GState, s0.storage = s.storage ∧ s0.out = s.out ∧ s0.timers = s.timers ∧
      ((gossipObjectHandler cf clk n s g).1 = (handle cf clk s0 g).1 ∨ (gossipObjectHandler cf clk n s g).1 = s0) := by
    refine ⟨{ s with trafficReceived := s.trafficReceived + n }, rfl, rfl, rfl, ?_⟩
    rw [recv_eq cf clk n s g hnf]
    split
    · cases hv' : g.verify cf.crypto with
      | ok => exact absurd hv' hv
      | err e => exact .inl rfl
      | panic => exact .inr rfl
    · exact .inl rfl
  obtain ⟨s0, h1, h2, h3, h4⟩ := hs0
  intro s'
  have same : s' = s0 → (∃ new, s'.out = s.out ++ new ∧ ∀ x ∈ new, ¬ x.carries g) ∧ s'.timers = s.timers ∧
    s'.storage.objs g.type = s.storage.objs g.type ∧ s'.storage.revPayload = s.storage.revPayload := by
    intro e; rw [e, h1, h2, h3]; exact ⟨⟨[], by simp, by simp⟩, rfl, rfl, rfl⟩
  rcases h4.symm with h4 | h4
  · exact same h4
  by_cases hcon : g.type = .CON_INIT
  · rcases handle_con_cases cf clk s0 g hcon with h | ⟨hv', _⟩
    · exact same (h4.trans h)
    · exact absurd hv' hv
  by_cases hacc : g.type = .ACC_INIT
  · apply same
    refine h4.trans ?_
    have hobj : g.type.isObj = true := by simp [hacc, GType.isObj]
    rw [handle_acc cf clk hacc]
    split
    · rfl
    · rename_i hd
      split
      · rfl
      · unfold handleAcc
        split
        · rfl
        · split
          · rfl
          · rcases storeGossipObject_cases cf clk s0 g hobj (by simpa using hd) with ⟨_, h⟩ | ⟨_, h⟩ | ⟨h, _⟩
            · simp only [h]
            · simp only [h]
            · exact absurd h hv
  have ht' : g.type = .STH_INIT ∨ g.type = .REV_INIT := by
    rcases ht with h | h | h | h
    · exact .inl h
    · exact .inr h
    · exact absurd h hacc
    · exact absurd h hcon
  rcases handle_sthrev_cases cf clk s0 g ht' with h | ⟨_, h⟩ | ⟨hv', _⟩
  · exact same (h4.trans h)
  · rw [h] at h4
    rcases handle_con_cases cf clk s0 (generateCON clk (getObject s0 g.getID g.type) g) rfl with hc | ⟨_, _, _, hc⟩
    · exact same (h4.trans hc)
    · rw [hc] at h4
      generalize hcc : generateCON clk (getObject s0 g.getID g.type) g = c at h4
      have hct : c.type = .CON_INIT := by rw [← hcc]; rfl
      change s' = _ at h4
      refine ⟨⟨Broadcast cf c, ?_, ?_⟩, ?_, ?_, ?_⟩
      · rw [h4, broadcast_out cf _ _ (by simp [hct])]; simp [h2]
      · intro x hx
        simp only [Broadcast, List.mem_append, List.mem_map, List.mem_singleton] at hx
        have hne : c ≠ g := fun e => hcon (e ▸ hct)
        rcases hx with ⟨u, _, rfl⟩ | rfl
        · simpa [Announce, hct, Out.carries] using hne
        · simpa [Out.carries] using hne
      · rw [h4]; simp [h3]
      · rw [h4]
        simp only [storage_sendToMonitor, storage_sendToGossipers, storage_storedState]
        rw [Storage.objs_putObj_ne _ _ _ (by rw [hct]; exact hcon), h1]
      · rw [h4]
        simp [h1]
  · exact absurd hv' hv

example : ({ Ref.sth with payload := ⟨go!"L1", go!"forged", []⟩ } : GossipObj).verify Ref.gconf.crypto ≠ .ok := by
  decide +kernel

/-- C25 fails for fragments: any new fragment, valid or not, naming somebody not blacklisted is stored and forwarded to
every connected gossiper as long as it is not the last one missing. Fragments are never verified. -/
theorem C25_violated_any_fragment_forwarded (cf : GConf L) (clk : Clock) (n : Int) (s : GState) (hs : GReach cf s)
    (g : GossipObj) (ht : g.type = .STH_FRAG ∨ g.type = .ACC_FRAG)
    (hb : s.blacklist.has g.payload.p0 = false) (hnew : ∀ v ∈ s.storage.fragList g.type g.getID, v.sig ≠ g.sig)
    (hl : ((s.storage.fragList g.type g.getID).length : Int) + 1 < cf.crypto.threshold) :
    (gossipObjectHandler cf clk n s g).1.out =
      s.out ++ cf.connected.map (fun u => .peer u (endpointOf g.type) (.obj g)) ∧
    g ∈ (gossipObjectHandler cf clk n s g).1.storage.fragList g.type g.getID := by
  have htf : g.type.isFrag = true := by rcases ht with h | h <;> simp [h, GType.isFrag]
  have e1 : g.type ≠ .REV_INIT := by rcases ht with h | h <;> simp [h]
  have e2 : g.type ≠ .REV_FRAG := by rcases ht with h | h <;> simp [h]
  rw [recv_eq cf clk n s g (fun x => e2 x.2), if_neg (fun x => e1 x.2)]
  rw [handle_frag_below cf clk { s with trafficReceived := s.trafficReceived + n } g (hs.storageInv cf) htf ?_ hb hl]
  · constructor
    · unfold sendToGossipers
      simp only
      rw [if_neg (fun x => e1 x.2), if_neg (fun x => e2 x.2)]
    · simp [Storage.fragList_appendFrag_same _ _ _ _ htf]
  · cases hdc : dupCheck { s with trafficReceived := s.trafficReceived + n } g with
    | false => rfl
    | true => obtain ⟨v, hv, h⟩ := (dupCheck_frag htf).1 hdc; exact absurd h (hnew v hv)

/-- A fragment whose signature does not even decode. -/
example : ∃ g : GossipObj, g.type = .STH_FRAG ∧ g.verify Ref.gconf.crypto ≠ .ok ∧
    GState.init.blacklist.has g.payload.p0 = false ∧ (0 : Int) + 1 < Ref.gconf.crypto.threshold :=
  ⟨{ Ref.frag (go!"G2") with sig := ⟨go!"junk", []⟩ }, rfl, by decide +kernel, rfl, by decide +kernel⟩

/-- C25 fails for FULL objects: one that fails verification, for an entity not blacklisted and with no FULL object held,
is passed to the owner monitor, every time it arrives. -/
theorem C25_violated_invalid_full_reaches_owner (cf : GConf L) (clk : Clock) (n : Int) (s : GState) (g : GossipObj)
    (ht : g.type.isFull = true) (e : VErr) (hv : g.verify cf.crypto = .err e)
    (hb : s.blacklist.has g.payload.p0 = false) (hno : ∀ o, ¬ HeldAs s.storage g.getID o g.type) :
    (gossipObjectHandler cf clk n s g).1.out = s.out ++ [.owner g] := by
  have hobj : g.type.isObj = true := by cases h : g.type <;> simp_all [GType.isFull, GType.isObj]
  have hni : g.type ≠ .REV_INIT := by intro h; simp [h, GType.isFull] at ht
  have hnf : g.type ≠ .REV_FRAG := by intro h; simp [h, GType.isFull] at ht
  have hnone : (s.storage.objs g.type).get g.getID = none := by
    cases h : (s.storage.objs g.type).get g.getID with
    | none => rfl
    | some o => exact absurd (heldAs_iff.2 h) (hno o)
  rw [recv_eq cf clk n s g (fun x => hnf x.2), if_neg (fun x => hni x.2)]
  generalize hs0 : ({ s with trafficReceived := s.trafficReceived + n } : GState) = s0
  have hd : dupCheck s0 g = false := dupCheck_false_of_none hobj (by rw [← hs0]; exact hnone)
  have hb0 : inBlacklist s0 g.payload.p0 = false := by rw [← hs0]; exact hb
  have hc : itemCount s0 g.getID g.type = 0 := by
    have : (s0.storage.objs g.type).has g.getID = false := by rw [← hs0]; simp [GoMap.has, hnone]
    unfold itemCount
    cases h : g.type <;> simp_all [GType.isFull]
  rw [handle_full cf clk ht, if_neg (by simp [hd]), if_neg (by simp [hb0]), handleFull, if_neg (by simp [hb0]), if_pos hc]
  rcases storeGossipObject_cases cf clk s0 g hobj hd with ⟨h, _⟩ | ⟨_, h⟩ | ⟨h, _⟩
  · rw [hv] at h; cases h
  · simp only [h]; simp [← hs0]
  · rw [hv] at h; cases h

example : ∃ (g : GossipObj) (e : VErr), g.type.isFull = true ∧ g.verify Ref.gconf.crypto = .err e ∧
    GState.init.blacklist.has g.payload.p0 = false ∧ ∀ o, ¬ HeldAs GState.init.storage g.getID o g.type := by
  refine ⟨{ Ref.fullOf (go!"G1") (go!"G2") with payload := ⟨go!"L1", go!"other", []⟩ }, .noSigMatch, by decide +kernel,
    by decide +kernel, by decide +kernel, ?_⟩
  intro o h; rw [heldAs_iff] at h; simp [GState.init] at h

/-! ### C26, second half -/

/-- C26 for a gossiper that handles one event at a time: whatever an event signs names an entity that was not
blacklisted when the event began. -/
theorem C26_blacklisted_not_signed_partial (cf : GConf L) (s : GState) (hs : GReach cf s) (e : Clock × GOp) (f : GossipObj)
    (h : .signed f ∈ (gstep cf s e).out) (hnew : .signed f ∉ s.out) : s.blacklist.has f.payload.p0 = false := by
  have key : ∀ s' : GState, (∀ f, .signed f ∈ s'.out → .signed f ∈ s.out ∨ s.blacklist.has f.payload.p0 = false) ∧
      (∀ x, s.blacklist.has x = true → s'.blacklist.has x = true) →
      (.signed f ∈ s'.out → s.blacklist.has f.payload.p0 = false) :=
    fun s' H hf => (H.1 f hf).resolve_left hnew
  by_cases he : e.2 = .periodic
  · obtain ⟨clk, op⟩ := e
    dsimp only at he; subst he
    exfalso
    unfold gstep at h
    split at h
    · exact hnew h
    · apply hnew
      have : (periodicTask clk s).out = s.out := by
        simp only [periodicTask, wipeStorage, save]; split <;> rfl
      rw [← this]; exact h
  · refine key _ ?_ h
    refine SeqClosed.step cf (P := fun s' => (∀ f, .signed f ∈ s'.out → .signed f ∈ s.out ∨
      s.blacklist.has f.payload.p0 = false) ∧ (∀ x, s.blacklist.has x = true → s'.blacklist.has x = true)) ?_ hs e he
      ⟨fun f hf => .inl hf, fun x hx => hx⟩
    have peers : ∀ (s : GState) g f, .signed f ∈ (sendToGossipers cf s g).out → .signed f ∈ s.out := by
      intro s g f hf
      unfold sendToGossipers at hf
      simp only at hf
      split at hf <;> simpa using hf
    refine { toHClosed := Closed.hclosed cf ?_, received := fun _ _ h => h, payload := fun _ _ h _ _ => h, ask := ?_, answer := ?_,
             disarm := fun _ _ h => h, crash := fun _ h => h }
    · refine { init := ?_, acc := ?_, con := ?_, full := ?_, fullRefused := ?_, frag := fun _ _ h _ _ _ _ => h,
               fragPeers := ?_, signed := ?_, gen := ?_, note := ?_ }
      · intro clk s1 g hP _ _ _ _ _
        refine ⟨fun f hf => hP.1 f ?_, fun x hx => ?_⟩
        · simp only [out_sendToMonitor, List.mem_append, List.mem_singleton, reduceCtorEq, or_false] at hf
          simpa using peers _ _ _ hf
        · simp [blacklist_storedState, hP.2 x hx]
      · intro clk s1 g hP _ _ _ _
        exact ⟨fun f hf => hP.1 f (by simpa using hf), fun x hx => by simp [blacklist_storedState, hP.2 x hx]⟩
      · intro clk s1 g hP _ _ _ _ _
        refine ⟨fun f hf => hP.1 f ?_, fun x hx => ?_⟩
        · simp only [out_sendToMonitor, List.mem_append, List.mem_singleton, reduceCtorEq, or_false] at hf
          simpa using peers _ _ _ hf
        · simp [blacklist_storedState, hP.2 x hx]
      · intro clk s1 g hP _ _ _ _ _
        exact ⟨fun f hf => hP.1 f (by simpa using hf), fun x hx => by simp [blacklist_storedState, hP.2 x hx]⟩
      · intro s1 g hP _ _
        exact ⟨fun f hf => hP.1 f (by simpa using hf), hP.2⟩
      · intro s1 g hP _
        exact ⟨fun f hf => hP.1 f (peers _ _ _ hf), by simpa using hP.2⟩
      · intro s1 g f hP _ hg hb
        refine ⟨fun f' hf => ?_, hP.2⟩
        simp only [out_emit, List.mem_append, List.mem_singleton, Out.signed.injEq] at hf
        rcases hf with hf | rfl
        · exact hP.1 f' hf
        · right
          have hp : f'.payload = g.payload := by
            unfold generateFRAG at hg
            split at hg
            · cases hg
            · cases hg; rfl
          rw [hp]
          cases hh : s.blacklist.has g.payload.p0 with
          | false => rfl
          | true => have := hP.2 _ hh; rw [inBlacklist, this] at hb; cases hb
      · intro clk s1 g o hP _ _
        exact ⟨fun f hf => hP.1 f (by simpa using hf), hP.2⟩
      · intro clk s1 hP
        exact ⟨fun f hf => hP.1 f (by simpa using hf), by simpa using hP.2⟩
    · intro s1 n x hP
      refine ⟨fun f hf => hP.1 f ?_, by simpa using hP.2⟩
      unfold notificationHandler at hf
      simp only at hf
      split at hf <;> simpa using hf
    · intro s1 n x hP
      refine ⟨fun f hf => hP.1 f ?_, by simpa using hP.2⟩
      unfold requestHandler at hf
      simp only at hf
      split at hf <;> simpa using hf

/-- Signing races with conviction: the signing timer has passed its blacklist check when the second STH of L1 is handled
completely. -/
def Ref.signRace : List (Clock × CEvent) :=
  [(Ref.clk, .recv 10 Ref.sth)] ++ List.replicate 20 (Ref.clk, .run 0) ++ [(Ref.clk, .fire 0), (Ref.clk, .run 1)] ++
  [(Ref.clk, .recv 10 Ref.sth')] ++ List.replicate 20 (Ref.clk, .run 2)

/-- C26 fails under concurrency: L1 is already blacklisted when its statement is signed. -/
theorem C26_violated_signs_blacklisted :
    (crun Ref.gconf CState.init Ref.signRace).g.blacklist.has (go!"L1") = true ∧
    .signed (Ref.frag (go!"G1")) ∉ (crun Ref.gconf CState.init Ref.signRace).g.out ∧
    .signed (Ref.frag (go!"G1")) ∈ (crun Ref.gconf CState.init (Ref.signRace ++ [(Ref.clk, .run 1)])).g.out ∧
    (Ref.frag (go!"G1")).payload.p0 = go!"L1" := by
  refine ⟨by decide +kernel, by decide +kernel, by decide +kernel, by decide +kernel⟩

/-- The sequential theorem applies to the firing of an armed timer. -/
example : ∃ s, GReach Ref.gconf s ∧ .signed (Ref.frag (go!"G1")) ∈ (gstep Ref.gconf s (Ref.clk, .fire 0)).out ∧
    .signed (Ref.frag (go!"G1")) ∉ s.out :=
  ⟨grun Ref.gconf GState.init [(Ref.clk, .recv 10 Ref.sth)], ⟨_, rfl⟩, by decide +kernel, by decide +kernel⟩

/-! ### C28 -/

/-- C28. The periodic task keeps the conflict proofs and the blacklist and empties everything else. -/
theorem C28_wipe_keeps_evidence (cf : GConf L) (clk : Clock) (s : GState) (hcr : s.crashed = false) :
    let s' := gstep cf s (clk, .periodic)
    (∀ k o, HeldAs s'.storage k o .CON_INIT ↔ HeldAs s.storage k o .CON_INIT) ∧
    (∀ x, s'.blacklist.get x = s.blacklist.get x) ∧
    (∀ t, t ≠ .CON_INIT → ∀ k o, ¬ HeldAs s'.storage k o t) ∧
    (∀ k, s'.storage.sthFrag.get k = none ∧ s'.storage.revFrag.get k = none ∧ s'.storage.accFrag.get k = none) ∧
    (∀ k, s'.storage.revPayload.get k = none) := by
  have e : gstep cf s (clk, .periodic) = periodicTask clk s := by unfold gstep; rw [if_neg (by simp [hcr])]
  intro s'
  have hst : s'.storage = { Storage.init with conInit := s.storage.conInit } := by simp [s', e]
  refine ⟨?_, ?_, ?_, ?_, ?_⟩
  · intro k o; rw [heldAs_iff, heldAs_iff, hst]; rfl
  · intro x; simp [s', e]
  · intro t ht k o h
    rw [heldAs_iff, hst] at h
    cases t <;> simp_all [Storage.objs, Storage.init]
  · intro k; rw [hst]; simp [Storage.init]
  · intro k; rw [hst]; simp [Storage.init]

/-- C28. After a wipe, every verifying STH_INIT or REV_INIT of an entity that is not blacklisted is stored, sent to
everybody and scheduled for signing, whatever was held before. -/
theorem C28_after_wipe_all_is_new (cf : GConf L) (hT : 0 < cf.crypto.threshold) (s : GState) (hs : GReach cf s)
    (hcr : s.crashed = false) (clk : Clock) (g : GossipObj) (ht : g.type = .STH_INIT ∨ g.type = .REV_INIT)
    (hv : g.verify cf.crypto = .ok) (hb : s.blacklist.has g.payload.p0 = false) (hsg : g.signer ≠ [])
    (clk' : Clock) (n : Int) :
    let s' := gstep cf s (clk, .periodic)
    let s'' := (gossipObjectHandler cf clk' n s' g).1
    HeldAs s''.storage g.getID g g.type ∧ s''.out = s'.out ++ Broadcast cf g ∧ s''.timers = s'.timers ++ [g] := by
  obtain ⟨_, h2, h3, _⟩ := C28_wipe_keeps_evidence cf clk s hcr
  exact C23_violated_init_always_accepted cf hT _ (hs.step cf _) g ht hv (by
    simp only [GoMap.has] at hb ⊢; rw [h2]; exact hb) (h3 _ (by rcases ht with h | h <;> simp [h]) _) hsg clk' n

example : ∃ s, GReach Ref.gconf s ∧ s.crashed = false ∧ HeldAs s.storage Ref.sth.getID Ref.sth .STH_INIT ∧
    Ref.sth.verify Ref.gconf.crypto = .ok ∧ s.blacklist.has Ref.sth.payload.p0 = false ∧ Ref.sth.signer ≠ [] :=
  ⟨grun Ref.gconf GState.init [(Ref.clk, .recv 10 Ref.sth)], ⟨_, rfl⟩, by decide +kernel, heldAs_iff.2 (by decide +kernel),
    by decide +kernel, by decide +kernel, by decide +kernel⟩

/-! ### C29 -/

/-- C29 for a gossiper that handles one event at a time. -/
theorem C29_first_full_wins_partial (cf : GConf L) (s : GState) (hs : GReach cf s) (k : GossipID) (t : GType)
    (ht : t.isFull = true) (o : GossipObj) (held : HeldAs s.storage k o t) (h : List (Clock × GOp))
    (hw : ∀ e ∈ h, e.2 ≠ .periodic) : HeldAs (grun cf s h).storage k o t := by
  rw [heldAs_iff] at held ⊢
  refine SeqClosed.run cf (P := fun s => (s.storage.objs t).get k = some o) (FineClosed.core cf ?_ ?_ ?_ ?_) hs h hw held
  · intro s s' h1 _ hs; rw [← h1]; exact hs
  · intro clk s g hs hobj hv hd hb hc
    rw [storage_storedState]
    by_cases e : t = g.type
    · subst e
      rw [Storage.objs_putObj_same _ _ _ _ hobj, GoMap.get_set]
      split
      · rename_i e
        have := hc (.inl ht)
        exfalso
        unfold itemCount at this
        have hh : (s.storage.objs g.type).has g.getID = true := (GoMap.has_iff _ _).2 ⟨o, e ▸ hs⟩
        cases h' : g.type <;> simp_all [GType.isFull]
      · exact hs
    · rw [Storage.objs_putObj_ne _ _ _ e]; exact hs
  · intro s g hs _ _ _ _; simpa using hs
  · intro s g hs _ _; cases t <;> exact hs

/-- Two valid FULL objects for the same statement arrive at once; the first handler stores, then the second. -/
def Ref.fullRace : List (Clock × CEvent) :=
  [(Ref.clk, .recv 10 (Ref.fullOf (go!"G1") (go!"G2"))), (Ref.clk, .recv 10 (Ref.fullOf (go!"G2") (go!"G3")))] ++
  List.replicate 6 (Ref.clk, .run 1) ++ List.replicate 20 (Ref.clk, .run 0)

/-- C29 fails under concurrency: the second handler had already counted zero FULL objects and replaces the first. -/
theorem C29_violated_replaced :
    HeldAs (crun Ref.gconf CState.init Ref.fullRace).g.storage ⟨go!"05", .STH_FULL, go!"L1"⟩
      (Ref.fullOf (go!"G1") (go!"G2")) .STH_FULL ∧
    HeldAs (crun Ref.gconf CState.init (Ref.fullRace ++ [(Ref.clk, .run 1)])).g.storage ⟨go!"05", .STH_FULL, go!"L1"⟩
      (Ref.fullOf (go!"G2") (go!"G3")) .STH_FULL ∧
    Ref.fullOf (go!"G1") (go!"G2") ≠ Ref.fullOf (go!"G2") (go!"G3") :=
  ⟨heldAs_iff.2 (by decide +kernel), heldAs_iff.2 (by decide +kernel), by decide +kernel⟩

example : ∃ s, GReach Ref.gconf s ∧ HeldAs s.storage ⟨go!"05", .STH_FULL, go!"L1"⟩ (Ref.fullOf (go!"G1") (go!"G2")) .STH_FULL :=
  ⟨grun Ref.gconf GState.init [(Ref.clk, .recv 10 (Ref.frag (go!"G1"))), (Ref.clk, .recv 10 (Ref.frag (go!"G2")))],
    ⟨_, rfl⟩, heldAs_iff.2 (by decide +kernel)⟩

/-! ### C36 -/

/-- C36 fails: both handlers pass the equivocation check before either stores. Both run to the end, the second statement
replaces the first, both were sent to the owner and nobody is blacklisted. -/
theorem C36_violated_concurrent_equivocation :
    let c := crun Ref.gconf CState.init Ref.raceSchedule
    Ref.sth.verify Ref.gconf.crypto = .ok ∧ Ref.sth'.verify Ref.gconf.crypto = .ok ∧
    Ref.sth.signer = Ref.sth'.signer ∧ Ref.sth.getID = Ref.sth'.getID ∧ Ref.sth.sig ≠ Ref.sth'.sig ∧
    (∀ t ∈ c.threads, t.frames = []) ∧ .owner Ref.sth ∈ c.g.out ∧ .owner Ref.sth' ∈ c.g.out ∧
    c.g.blacklist.has (go!"L1") = false := by
  refine ⟨by decide +kernel, by decide +kernel, by decide +kernel, by decide +kernel, by decide +kernel,
    by decide +kernel, by decide +kernel, by decide +kernel, by decide +kernel⟩

/-- C36 when one handler finishes before the other begins, in either order (take `g1` and `g2` exchanged). -/
theorem C36_sequential_equivocation_partial (cf : GConf L) (hT : 0 < cf.crypto.threshold) (s : GState) (hs : GReach cf s)
    (hcr : s.crashed = false) (g1 g2 : GossipObj) (ht : g1.type = .STH_INIT ∨ g1.type = .REV_INIT) (ht2 : g2.type = g1.type)
    (hid : g1.getID = g2.getID) (hsg : g1.signer = g2.signer) (hne : g1.sig ≠ g2.sig) (hs0 : g1.signer ≠ [])
    (hv1 : g1.verify cf.crypto = .ok) (hv2 : g2.verify cf.crypto = .ok)
    (hno : ∀ o, ¬ HeldAs s.storage g1.getID o g1.type) (clk clk' : Clock) (n n' : Int) :
    (gossipObjectHandler cf clk' n' (gossipObjectHandler cf clk n s g1).1 g2).1.blacklist.has g1.payload.p0 = true := by
  have hr : GReach cf (gossipObjectHandler cf clk n s g1).1 := by
    have := hs.step cf (clk, .recv n g1)
    unfold gstep at this
    rw [if_neg (by simp [hcr])] at this
    exact this
  have hp : g2.payload.p0 = g1.payload.p0 := (congrArg GossipID.entity hid).symm
  have hper : g2.period = g1.period := (congrArg GossipID.period hid).symm
  have mono : ∀ (s1 : GState) clk n g, s1.blacklist.has g1.payload.p0 = true →
      (gossipObjectHandler cf clk n s1 g).1.blacklist.has g1.payload.p0 = true := by
    intro s1 clk n g hb
    refine SeqClosed.recv cf (P := fun s => s.blacklist.has g1.payload.p0 = true) (FineClosed.core cf ?_ ?_ ?_ ?_) clk n g hb
    · intro s s' _ h2 h; rw [← h2]; exact h
    · intro clk s g h _ _ _ _ _; simp [blacklist_storedState, h]
    · intro s g h _ _ _ _; exact h
    · intro s g h _ _; exact h
  cases hb : s.blacklist.has g1.payload.p0 with
  | true => exact mono _ _ _ _ (mono _ _ _ _ hb)
  | false =>
    cases hb1 : (gossipObjectHandler cf clk n s g1).1.blacklist.has g1.payload.p0 with
    | true => exact mono _ _ _ _ hb1
    | false =>
      obtain ⟨h1, _, _⟩ := C23_violated_init_always_accepted cf hT s hs g1 ht hv1 hb hno hs0 clk n
      obtain ⟨c, _, _, _, _, h, _⟩ := C18_equivocation_detected cf hT _ hr g1.type ht g1 g2 g1.getID h1 ht2 hper hp
        hsg.symm (fun e => hne e.symm) hv2 (by rw [hp]; exact hb1) clk' n'
      rw [← hp]; exact h

end CTng
