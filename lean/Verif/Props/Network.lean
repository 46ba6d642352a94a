import Verif.Proofs.NetworkNode
import Verif.Props.GossiperConc
import Verif.Props.CryptoIO
/- C37, C38: what one gossiper learns reaches all the others. -/
set_option autoImplicit false

namespace CTng
variable {L : Lib}

/-- The gossipers verify with the same keys, every gossiper posts to every other, and the signing threshold is positive. -/
structure Mesh (N : NetConf L) : Prop where
  keys : ∀ x ∈ N.ids, ∀ y ∈ N.ids, SameVerify (N.conf x).crypto (N.conf y).crypto
  threshold : ∀ x ∈ N.ids, 0 < (N.conf x).crypto.threshold
  connected : ∀ x ∈ N.ids, ∀ y ∈ N.ids, x ≠ y → y ∈ (N.conf x).connected

/-- The process of gossiper `x` has not died. -/
def Net.up (s : Net) (x : Str) : Prop := (s.node x).g.crashed = false

/-- Nothing is under way between the gossipers and no goroutine of a running gossiper has work left. -/
structure Quiet (N : NetConf L) (s : Net) : Prop where
  flight : ∀ m ∈ s.flight, m.dst ∉ N.ids
  idle : ∀ x ∈ N.ids, s.up x → ∀ t ∈ (s.node x).threads, t.frames = []

/-! ### Every gossiper of the network runs the gossiper program -/

theorem nodeStep_node (N : NetConf L) (s : Net) (x : Str) (e : Clock × CEvent) (hx : x ∈ N.ids) (y : Str) :
    (nodeStep N s x e).node y = if y = x then cstep (N.conf x) (s.node x) e else s.node y := by
  simp only [nodeStep, if_pos hx]

/-- What a network event is: nothing, a message consumed, or an event at a gossiper after consuming at most one message. -/
inductive NAct (N : NetConf L) (s : Net) : NEvent → Net → Prop
  | skip (e) : NAct N s e s
  | drop (i clk m) : s.flight[i]? = some m → m.dst ∈ N.ids → routeEvent (N.conf m.dst) m = none →
      NAct N s (.deliver i clk) { s with flight := s.flight.eraseIdx i }
  | deliver (i clk m ev) : s.flight[i]? = some m → m.dst ∈ N.ids → routeEvent (N.conf m.dst) m = some ev →
      NAct N s (.deliver i clk) (nodeStep N { s with flight := s.flight.eraseIdx i } m.dst (clk, ev))
  | node (x e) : x ∈ N.ids → NAct N s (.node x e) (nodeStep N s x e)

theorem nstep_act (N : NetConf L) (s : Net) (e : NEvent) : NAct N s e (nstep N s e) := by
  cases e with
  | node x e =>
    by_cases hx : x ∈ N.ids
    · exact .node x e hx
    · have : nstep N s (.node x e) = s := by simp only [nstep, nodeStep, if_neg hx]
      rw [this]; exact .skip _
  | deliver i clk =>
    simp only [nstep]
    cases hm : s.flight[i]? with
    | none => exact .skip _
    | some m =>
      simp only
      by_cases hd : m.dst ∈ N.ids
      · rw [if_pos hd]
        cases hr : routeEvent (N.conf m.dst) m with
        | none => exact .drop i clk m hm hd hr
        | some ev => exact .deliver i clk m ev hm hd hr
      · rw [if_neg hd]; exact .skip _

theorem CReach.step {cf : GConf L} {c : CState} (h : CReach cf c) (e : Clock × CEvent) : CReach cf (cstep cf c e) := by
  obtain ⟨es, rfl⟩ := h
  exact ⟨es ++ [e], by simp [crun, List.foldl_append]⟩

theorem nstep_reach (N : NetConf L) (s : Net) (e : NEvent) (h : ∀ x, CReach (N.conf x) (s.node x)) :
    ∀ x, CReach (N.conf x) ((nstep N s e).node x) := by
  have hns : ∀ (s' : Net) x e, x ∈ N.ids → s'.node = s.node → ∀ y, CReach (N.conf y) ((nodeStep N s' x e).node y) := by
    intro s' x e hx hs y
    rw [nodeStep_node N s' x e hx, hs]
    split
    · rename_i hy; subst hy; exact (h y).step e
    · exact h y
  have ha := nstep_act N s e
  generalize nstep N s e = s' at ha ⊢
  cases ha with
  | skip => exact h
  | drop i clk m h1 h2 h3 => exact h
  | deliver i clk m ev h1 h2 h3 => exact hns _ _ _ h2 rfl
  | node x e hx => exact hns _ _ _ hx rfl

theorem nrun_reach (N : NetConf L) (s : Net) (h : ∀ x, CReach (N.conf x) (s.node x)) (es : List NEvent) :
    ∀ x, CReach (N.conf x) ((nrun N s es).node x) := by
  induction es generalizing s with
  | nil => exact h
  | cons e es ih => exact ih (nstep N s e) (nstep_reach N s e h)

/-- Each gossiper of a network is in a state the single gossiper can reach. -/
theorem NReach.node {N : NetConf L} {s : Net} (h : NReach N s) (x : Str) : CReach (N.conf x) (s.node x) := by
  obtain ⟨es, rfl⟩ := h
  exact nrun_reach N Net.init (fun _ => ⟨[], rfl⟩) es x

theorem CReach.sound {cf : GConf L} {c : CState} (h : CReach cf c) : Sound cf c := by
  obtain ⟨es, _, hm, hf⟩ := h.main
  exact ⟨hm.storage, fun f ⟨t, ht, hft⟩ => (hf t ht f hft).1⟩

/-! ### The network invariant for one key -/

/-- What is known about gossiper `y` when gossiper `x` holds an object under the key. -/
def Reaches (N : NetConf L) (k : GossipID) (s : Net) (x y : Str) : Prop :=
  Settled (s.node y) k ∨
  (∃ o, Carrier (N.conf x) k o ∧ ∃ f, Learns o f ∧ Pending (s.node y) f) ∨
  (∃ o, Carrier (N.conf x) k o ∧ ∃ m ∈ s.flight, m.dst = y ∧ m.route ∈ objRoutes ∧ m.body = .obj o) ∨
  (∃ o, Carrier (N.conf x) k o ∧ ∃ f, Sends o f ∧ Pending (s.node x) f)

/-- Small enough to be posted as a whole, if a revocation update. -/
def FloodKey (N : NetConf L) (k : GossipID) : Prop :=
  k.type = .CON_INIT ∨ k.type = .STH_INIT ∨
  (k.type = .REV_INIT ∧ ∀ x ∈ N.ids, ∀ o, (N.conf x).jsonLen o ≤ (N.conf x).optThreshold)

structure NetInv (N : NetConf L) (k : GossipID) (s : Net) : Prop where
  reach : ∀ x, CReach (N.conf x) (s.node x)
  inv : ∀ x ∈ N.ids, s.up x → NodeInv (N.conf x) (s.node x) k
  reaches : ∀ x ∈ N.ids, ∀ y ∈ N.ids, x ≠ y → s.up x → s.up y → HeldKey (s.node x) k → Reaches N k s x y

/-- The event is not the periodic wipe. -/
def NEvent.noWipe : NEvent → Bool
  | .node _ (_, .periodic) => false
  | _ => true

theorem wipe_cstep {cf : GConf L} {c : CState} {e : Clock × CEvent} (he : e.2 ≠ .periodic)
    (h : HasFrame (cstep cf c e) .wipe) : HasFrame c .wipe := by
  have hsp : ∀ (g : GState) (fs : List Frame) (b : Bool), Frame.wipe ∉ fs → HasFrame ⟨g, c.threads ++ [⟨fs, b⟩]⟩ .wipe → HasFrame c .wipe := by
    rintro g fs b hn ⟨t, ht, hf⟩
    rcases List.mem_append.1 ht with ht | ht
    · exact ⟨t, ht, hf⟩
    · simp at ht; subst ht; exact absurd hf hn
  obtain ⟨clk, ev⟩ := e
  unfold cstep at h
  split at h
  · exact h
  cases ev with
  | recv n o => exact hsp c.g _ _ (by simp) h
  | notify n o => exact hsp c.g _ _ (by simp) h
  | request n o => exact hsp c.g _ _ (by simp) h
  | periodic => exact absurd rfl he
  | fire i =>
    simp only at h
    cases ht : c.g.timers[i]? with
    | none => rw [ht] at h; exact h
    | some o => rw [ht] at h; exact hsp _ _ _ (by simp) h
  | run i =>
    simp only at h
    cases ht : c.threads[i]? with
    | none => rw [ht] at h; exact h
    | some t =>
      rw [ht] at h
      obtain ⟨u, hu, huf⟩ := h
      rcases List.mem_or_eq_of_mem_set hu with hu | rfl
      · exact ⟨u, hu, huf⟩
      · refine ⟨t, List.mem_of_getElem? ht, ?_⟩
        simp only [stepThread] at huf
        cases hfr : t.frames with
        | nil => rw [hfr] at huf; simp only at huf; rw [hfr] at huf; cases huf
        | cons f fs =>
          rw [hfr] at huf
          simp only at huf
          rcases hst : stepFrame cf clk c.g f with ⟨s', new⟩
          rw [hst] at huf
          cases new with
          | none => cases huf
          | some new =>
            rcases List.mem_append.1 huf with h1 | h1
            · exact absurd h1 (wipe_new clk c.g f new (by rw [hst]))
            · exact List.mem_cons_of_mem _ h1

theorem KeepsKey.cstep {cf : GConf L} {c : CState} {k : GossipID} {e : Clock × CEvent} (h : KeepsKey c k)
    (he : k.type = .CON_INIT ∨ e.2 ≠ .periodic) : KeepsKey (cstep cf c e) k := by
  rcases h with h | h
  · exact .inl h
  · rcases he with he | he
    · exact .inl he
    · exact .inr fun hw => h (wipe_cstep he hw)

theorem FloodKey.type {N : NetConf L} {k : GossipID} (h : FloodKey N k) : FloodType k.type := by
  rcases h with h | h | ⟨h, _⟩
  · exact .inl h
  · exact .inr (.inl h)
  · exact .inr (.inr h)

theorem Carrier.transfer {a b : GConf L} {k : GossipID} {o : GossipObj} (h : SameVerify a.crypto b.crypto) (ho : Carrier a k o) :
    Carrier b k o := ⟨ho.id, by rw [← verify_congr h]; exact ho.ok, ho.signer⟩

theorem endpoint_obj {o : GossipObj} (h : FloodType o.type) : endpointOf o.type ∈ objRoutes := by
  rcases h with h | h | h <;> rw [h] <;> simp [endpointOf, objRoutes]

/-- One event at a gossiper keeps the invariant, given that messages were only added or that a consumed message is what the
event delivers. -/
theorem nodeStep_inv {N : NetConf L} {k : GossipID} {s s1 : Net} (hM : Mesh N) (hk : FloodKey N k) (hI : NetInv N k s)
    (z : Str) (hz : z ∈ N.ids) (e : Clock × CEvent) (he : k.type = .CON_INIT ∨ e.2 ≠ .periodic) (hn : s1.node = s.node)
    (hfl : ∀ m ∈ s.flight, m ∈ s1.flight ∨ (m.dst = z ∧ (∀ o, m.route ∈ objRoutes → m.body = .obj o → ∃ n, e.2 = .recv n o))) :
    NetInv N k (nodeStep N s1 z e) := by
  have hnode := nodeStep_node N s1 z e hz
  have hflight : ∀ m, m ∈ s1.flight → m ∈ (nodeStep N s1 z e).flight := by
    intro m hm; simp only [nodeStep, if_pos hz]; exact List.mem_append_left _ hm
  rw [hn] at hnode
  have hself : (nodeStep N s1 z e).node z = cstep (N.conf z) (s.node z) e := by rw [hnode, if_pos rfl]
  have hother : ∀ y, y ≠ z → (nodeStep N s1 z e).node y = s.node y := fun y hy => by rw [hnode, if_neg hy]
  have hupo : ∀ y, (nodeStep N s1 z e).up y → s.up y := by
    intro y hy
    by_cases e' : y = z
    · subst e'; unfold Net.up at hy ⊢; rw [hself] at hy; exact up_before _ hy
    · unfold Net.up at hy ⊢; rw [hother y e'] at hy; exact hy
  have hact : (nodeStep N s1 z e).up z → Act (N.conf z) (s.node z) ((nodeStep N s1 z e).node z) := by
    intro hu
    rw [hself]
    refine cstep_act _ _ _ ?_
    unfold Net.up at hu; rw [hself] at hu; exact hu
  have hnw : NodeInv (N.conf z) (s.node z) k → KeepsKey ((nodeStep N s1 z e).node z) k := by
    intro hi; rw [hself]; exact hi.noWipe.cstep he
  refine ⟨?_, ?_, ?_⟩
  · intro y
    by_cases e' : y = z
    · subst e'; rw [hself]; exact (hI.reach y).step e
    · rw [hother y e']; exact hI.reach y
  · intro y hy hu
    by_cases e' : y = z
    · subst e'
      have hi := hI.inv y hy (hupo y hu)
      exact hi.act (hI.reach y).sound hk.type (hact hu) (hnw hi)
    · rw [hother y e']; exact hI.inv y hy (hupo y hu)
  · intro x hx y hy hxy hux huy hheld
    have hux0 := hupo x hux
    have huy0 := hupo y huy
    by_cases hh0 : HeldKey (s.node x) k
    · rcases hI.reaches x hx y hy hxy hux0 huy0 hh0 with h | ⟨o, ho, h⟩ | ⟨o, ho, m, hm, hd, hr, hb⟩ | ⟨o, ho, h⟩
      · left
        by_cases e' : y = z
        · subst e'; exact h.act (hI.reach y).sound (hI.inv y hy huy0).noWipe (hact huy)
        · rw [hother y e']; exact h
      · by_cases e' : y = z
        · subst e'
          have := learn_act (hI.reach y).sound (hI.inv y hy huy0) (hM.threshold y hy) hk.type
            (ho.transfer (hM.keys x hx y hy)) (hact huy) h
          rcases this with h | h
          · exact .inl h
          · exact .inr (.inl ⟨o, ho, h⟩)
        · exact .inr (.inl ⟨o, ho, by rw [hother y e']; exact h⟩)
      · rcases hfl m hm with h | ⟨hz', h⟩
        · exact .inr (.inr (.inl ⟨o, ho, m, hflight m h, hd, hr, hb⟩))
        · obtain ⟨n, hn'⟩ := h o hr hb
          have hyz : y = z := hd.symm.trans hz'
          subst hyz
          refine .inr (.inl ⟨o, ho, .recv n o, .inl ⟨n, rfl⟩, ?_⟩)
          rw [hself]
          have := cstep_recv (N.conf y) (s.node y) e.1 n o huy0
          rw [← hn'] at this
          exact this
      · by_cases e' : x = z
        · subst e'
          have hot : o.type = k.type := congrArg GossipID.type ho.id
          have := send_act (cf := N.conf x) (o := o) (by rw [hot]; exact hk.type) (by
            rw [hot]
            intro ht
            rcases hk with hk | hk | ⟨_, hk⟩
            · rw [ht] at hk; cases hk
            · rw [ht] at hk; cases hk
            · exact hk x hx o) (hact hux) h
          rcases this with h | h
          · exact .inr (.inr (.inr ⟨o, ho, h⟩))
          · refine .inr (.inr (.inl ⟨o, ho, ⟨y, endpointOf o.type, .obj o⟩, ?_, rfl, endpoint_obj (by rw [hot]; exact hk.type), rfl⟩))
            have := h y (hM.connected x hx y hy hxy)
            rw [hself] at this
            simp only [nodeStep, if_pos hz, hn]
            exact List.mem_append_right _ this
        · exact .inr (.inr (.inr ⟨o, ho, by rw [hother x e']; exact h⟩))
    · have hxz : x = z := Classical.byContradiction fun e' => hh0 (by rw [hother x e'] at hheld; exact hheld)
      subst hxz
      obtain ⟨o, ho, hp⟩ := new_act (hI.reach x).sound (hI.inv x hx hux0) hk.type (hact hux) hh0 hheld
      exact .inr (.inr (.inr ⟨o, ho, _, .inl rfl, hp⟩))

theorem mem_eraseIdx_or {α : Type} {l : List α} {i : Nat} {a m : α} (hi : l[i]? = some a) (hm : m ∈ l) :
    m ∈ l.eraseIdx i ∨ m = a := by
  obtain ⟨j, hj⟩ := List.getElem?_of_mem hm
  by_cases e : j = i
  · subst e; rw [hi] at hj; exact .inr (Option.some.inj hj).symm
  · left
    obtain ⟨hlt, hje⟩ := List.getElem?_eq_some_iff.1 hj
    rw [List.mem_eraseIdx_iff_getElem?]
    exact ⟨j, e, hj⟩

theorem routeEvent_periodic {cf : GConf L} {m : Msg} {ev : CEvent} (h : routeEvent cf m = some ev) : ev ≠ .periodic := by
  unfold routeEvent at h
  split at h
  · split at h <;> simp at h
    subst h; simp
  · split at h
    · simp at h; subst h; simp
    · split at h <;> simp at h
      subst h; simp

theorem nstep_inv {N : NetConf L} {k : GossipID} {s : Net} (hM : Mesh N) (hk : FloodKey N k) (hI : NetInv N k s)
    (e : NEvent) (he : k.type = .CON_INIT ∨ e.noWipe = true) : NetInv N k (nstep N s e) := by
  have ha := nstep_act N s e
  generalize nstep N s e = s' at ha ⊢
  cases ha with
  | skip => exact hI
  | drop i clk m h1 h2 h3 =>
    refine ⟨hI.reach, hI.inv, ?_⟩
    intro x hx y hy hxy hux huy hheld
    rcases hI.reaches x hx y hy hxy hux huy hheld with h | h | ⟨o, ho, m', hm, hd, hr, hb⟩ | h
    · exact .inl h
    · exact .inr (.inl h)
    · refine .inr (.inr (.inl ⟨o, ho, m', ?_, hd, hr, hb⟩))
      rcases mem_eraseIdx_or h1 hm with h | h
      · exact h
      · subst h
        unfold routeEvent at h3
        rw [hb] at h3
        simp [hr] at h3
    · exact .inr (.inr (.inr h))
  | deliver i clk m ev h1 h2 h3 =>
    refine nodeStep_inv hM hk hI m.dst h2 (clk, ev) (.inr (routeEvent_periodic h3)) rfl ?_
    intro m' hm'
    rcases mem_eraseIdx_or h1 hm' with h | h
    · exact .inl h
    · subst h
      refine .inr ⟨rfl, fun o hr hb => ?_⟩
      unfold routeEvent at h3
      rw [hb] at h3
      simp only [if_pos hr, Option.some.injEq] at h3
      exact ⟨_, h3.symm⟩
  | node x e hx =>
    refine nodeStep_inv hM hk hI x hx e ?_ rfl (fun m hm => .inl hm)
    rcases he with he | he
    · exact .inl he
    · refine .inr ?_
      rintro h
      obtain ⟨clk, ev⟩ := e
      simp only at h; subst h; cases he

theorem nrun_inv {N : NetConf L} {k : GossipID} {s : Net} (hM : Mesh N) (hk : FloodKey N k) (hI : NetInv N k s)
    (es : List NEvent) (he : k.type = .CON_INIT ∨ ∀ e ∈ es, e.noWipe = true) : NetInv N k (nrun N s es) := by
  induction es generalizing s with
  | nil => exact hI
  | cons e es ih =>
    refine ih (nstep_inv hM hk hI e ?_) ?_
    · rcases he with h | h
      · exact .inl h
      · exact .inr (h e (by simp))
    · rcases he with h | h
      · exact .inl h
      · exact .inr fun e' h' => h e' (List.mem_cons_of_mem _ h')

theorem not_pending_of_idle {c : CState} (h : ∀ t ∈ c.threads, t.frames = []) (f : Frame) : ¬ Pending c f := by
  rintro ⟨t, ht, hf⟩; rw [h t ht] at hf; cases hf

/-- When nothing is under way, whoever is up is done with a key that anybody holds. -/
theorem settled_of_quiet {N : NetConf L} {k : GossipID} {s : Net} (hI : NetInv N k s) (hq : Quiet N s) {x y : Str} (hx : x ∈ N.ids)
    (hy : y ∈ N.ids) (hux : s.up x) (huy : s.up y) (hh : HeldKey (s.node x) k) :
    (s.node y).g.blacklist.has k.entity = true ∨ (k.type ≠ .CON_INIT ∧ HeldKey (s.node y) k) := by
  have hset : Settled (s.node y) k := by
    by_cases e : x = y
    · subst e
      by_cases hc : k.type = .CON_INIT
      · exact (hI.inv x hx hux).settled hc hh
      · exact .inr (.inr ⟨hc, hh⟩)
    · rcases hI.reaches x hx y hy e hux huy hh with h | ⟨o, _, f, _, hp⟩ | ⟨o, _, m, hm, hd, _, _⟩ | ⟨o, _, f, _, hp⟩
      · exact h
      · exact absurd hp (not_pending_of_idle (hq.idle y hy huy) f)
      · exact absurd (hd ▸ hy) (hq.flight m hm)
      · exact absurd hp (not_pending_of_idle (hq.idle x hx hux) f)
  rcases hset with h | ⟨g, hp, _⟩ | h
  · exact .inl h
  · exact absurd hp (not_pending_of_idle (hq.idle y hy huy) _)
  · exact .inr h

theorem netInv_init {N : NetConf L} {k : GossipID} : NetInv N k Net.init where
  reach := fun _ => ⟨[], rfl⟩
  inv := fun x _ _ => by
    have hf : ∀ f, ¬ HasFrame (Net.init.node x) f := by rintro f ⟨t, ht, _⟩; cases ht
    have hh : ¬ HeldKey (Net.init.node x) k := by
      unfold HeldKey; simp [Net.init, CState.init, GState.init, GoMap.has]
    exact ⟨fun _ h => absurd h hh, fun _ g h => absurd h (hf _), .inr (hf _)⟩
  reaches := fun x _ y _ _ _ _ h => by
    unfold HeldKey at h; simp [Net.init, CState.init, GState.init, GoMap.has] at h

/-! ### C37 -/

/-- C37. In a fully connected network of gossipers with the same keys, whatever is posted from outside, in whatever order
messages arrive and goroutines, timers and wipes run: once nothing is under way, if a running gossiper holds a conflict proof
against an entity then every running gossiper has blacklisted the entity. -/
theorem C37_conflict_proofs_reach_everyone (N : NetConf L) (hM : Mesh N) (s : Net) (hs : NReach N s) (hq : Quiet N s)
    (x y : Str) (hx : x ∈ N.ids) (hy : y ∈ N.ids) (hux : s.up x) (huy : s.up y) (k : GossipID) (o : GossipObj)
    (ho : (s.node x).g.storage.conInit.get k = some o) : (s.node y).g.blacklist.has o.payload.p0 = true := by
  obtain ⟨h1, h2, _⟩ := (hs.node x).sound.storage.objs .CON_INIT k o ho
  have hk : k.type = .CON_INIT := by rw [← h1]; exact h2
  obtain ⟨es, rfl⟩ := hs
  have hI := nrun_inv hM (.inl hk) netInv_init es (.inl hk)
  have hh : HeldKey ((nrun N Net.init es).node x) k := by
    rw [heldKey_get, hk]; exact ⟨o, ho⟩
  have : k.entity = o.payload.p0 := by rw [← h1]; rfl
  rw [← this]
  rcases settled_of_quiet hI hq hx hy hux huy hh with h | ⟨h, _⟩
  · exact h
  · exact absurd hk h

theorem con_cstep (cf : GConf L) (c : CState) (hc : CReach cf c) (e : Clock × CEvent) (k : GossipID)
    (h : c.g.storage.conInit.has k = true) : (cstep cf c e).g.storage.conInit.has k = true := by
  by_cases hk : k.type = .CON_INIT
  · obtain ⟨clk, ev⟩ := e
    unfold cstep
    split
    · exact h
    · cases ev with
      | fire i => simp only; split <;> exact h
      | run i =>
        simp only
        split
        · exact h
        · rename_i t ht
          simp only [stepThread]
          split
          · exact h
          · rename_i f fs hfr
            have key : (stepFrame cf clk c.g f).1.storage.conInit.has k = true := by
              have := held_sstep (k := k) (stepFrame_storage cf clk c.g f (hc.sound.wt f
                ⟨t, List.mem_of_getElem? ht, by rw [hfr]; exact List.mem_cons_self⟩)) (.inr hk) (by rw [hk]; exact h)
              rw [hk] at this
              exact this
            rcases hst : stepFrame cf clk c.g f with ⟨s', new⟩
            rw [hst] at key
            cases new with
            | some new => exact key
            | none => simp only; split <;> exact key
      | _ => exact h
  · obtain ⟨v, hv⟩ := (GoMap.has_iff _ _).1 h
    obtain ⟨h1, h2, _⟩ := hc.sound.storage.objs .CON_INIT k v hv
    exact absurd (by rw [← h1]; exact h2) hk

theorem con_crun (cf : GConf L) (es : List (Clock × CEvent)) (k : GossipID) : ∀ (c : CState), CReach cf c →
    c.g.storage.conInit.has k = true → (crun cf c es).g.storage.conInit.has k = true := by
  induction es with
  | nil => exact fun c _ h => h
  | cons e es ih => exact fun c hc h => ih (cstep cf c e) (hc.step e) (con_cstep cf c hc e k h)

/-- C37, from the blacklist. A running gossiper that blacklisted an entity either once held a full accusation against it, or
every running gossiper blacklisted it too. -/
theorem C37_blacklists_agree (N : NetConf L) (hM : Mesh N) (s : Net) (hs : NReach N s) (hq : Quiet N s)
    (x y : Str) (hx : x ∈ N.ids) (hy : y ∈ N.ids) (hux : s.up x) (huy : s.up y) (a : Str)
    (ha : (s.node x).g.blacklist.has a = true) :
    (s.node y).g.blacklist.has a = true ∨
    ∃ h o, s.node x = crun (N.conf x) CState.init h ∧ o.type = .ACC_FULL ∧ o.payload.p0 = a ∧ o.verify (N.conf x).crypto = .ok ∧
      HeldDuring (N.conf x) h o := by
  obtain ⟨h, hst⟩ := hs.node x
  rw [hst] at ha
  obtain ⟨o, ht, hp, hv, n, hheld⟩ := C16_blacklist_needs_evidence (N.conf x) h a ha
  rcases ht with ht | ht
  · left
    have hsplit : crun (N.conf x) CState.init h = crun (N.conf x) (crun (N.conf x) CState.init (h.take n)) (h.drop n) := by
      unfold crun; rw [← List.foldl_append, List.take_append_drop]
    rw [heldAs_iff, ht] at hheld
    have hh := con_crun (N.conf x) (h.drop n) o.getID _ ⟨h.take n, rfl⟩ ((GoMap.has_iff _ _).2 ⟨o, hheld⟩)
    rw [← hsplit, ← hst] at hh
    obtain ⟨o', ho'⟩ := (GoMap.has_iff _ _).1 hh
    have hres := C37_conflict_proofs_reach_everyone N hM s hs hq x y hx hy hux huy _ o' ho'
    have hid := ((hs.node x).sound.storage.objs .CON_INIT _ o' ho').1
    have : o'.payload.p0 = o.payload.p0 := congrArg GossipID.entity hid
    rw [this, hp] at hres
    exact hres
  · exact .inr ⟨h, o, hst, ht, hp, hv, n, hheld⟩

/-! ### C38 -/

/-- The beginning of a round for one key: no running gossiper holds anything under it, and none is in the middle of wiping or
of storing an STH or revocation update. Messages of any kind may still be under way. -/
structure RoundStart (N : NetConf L) (k : GossipID) (s : Net) : Prop where
  reach : NReach N s
  fresh : ∀ x ∈ N.ids, s.up x → (s.node x).g.storage.sthInit.has k = false ∧ (s.node x).g.storage.revInit.has k = false
  noWipe : ∀ x ∈ N.ids, s.up x → ∀ t ∈ (s.node x).threads, .wipe ∉ t.frames
  noStore : ∀ x ∈ N.ids, s.up x → ∀ t ∈ (s.node x).threads, ∀ g : GossipObj, g.type = .STH_INIT ∨ g.type = .REV_INIT →
    .store g ∉ t.frames

theorem RoundStart.inv {N : NetConf L} {k : GossipID} {s : Net} (h : RoundStart N k s) (hk : k.type = .STH_INIT ∨ k.type = .REV_INIT) :
    NetInv N k s := by
  have hnot : ∀ x ∈ N.ids, s.up x → ¬ HeldKey (s.node x) k := by
    intro x hx hu hh
    have := h.fresh x hx hu
    unfold HeldKey at hh
    rcases hk with hk | hk <;> rw [hk] at hh
    · change (s.node x).g.storage.sthInit.has k = true at hh; rw [this.1] at hh; cases hh
    · change (s.node x).g.storage.revInit.has k = true at hh; rw [this.2] at hh; cases hh
  refine ⟨h.reach.node, fun x hx hu => ⟨?_, ?_, ?_⟩, fun x hx y _ _ hux _ hh => absurd hh (hnot x hx hux)⟩
  · intro _ hh; exact absurd hh (hnot x hx hu)
  · rintro _ g ⟨t, ht, hf⟩ hid _ _
    have e : g.type = k.type := congrArg GossipID.type hid
    exact absurd hf (h.noStore x hx hu t ht g (by rw [e]; exact hk))
  · right; rintro ⟨t, ht, hf⟩; exact h.noWipe x hx hu t ht hf

/-- C38. In a fully connected network of gossipers with the same keys, between wipes, whatever is posted from outside and in
whatever order messages arrive and goroutines and timers run: once nothing is under way, if a running gossiper holds an STH for
a period and entity then every running gossiper holds an STH for that period and entity or has blacklisted the entity. -/
theorem C38_statements_flood (N : NetConf L) (hM : Mesh N) (s : Net) (k : GossipID) (hk : k.type = .STH_INIT) (hs : RoundStart N k s)
    (es : List NEvent) (hes : ∀ e ∈ es, e.noWipe = true) (hq : Quiet N (nrun N s es)) (x y : Str) (hx : x ∈ N.ids) (hy : y ∈ N.ids)
    (hux : (nrun N s es).up x) (huy : (nrun N s es).up y) (hh : ((nrun N s es).node x).g.storage.sthInit.has k = true) :
    ((nrun N s es).node y).g.blacklist.has k.entity = true ∨ ((nrun N s es).node y).g.storage.sthInit.has k = true := by
  have hI := nrun_inv hM (.inr (.inl hk)) (hs.inv (.inl hk)) es (.inr hes)
  have h1 : HeldKey ((nrun N s es).node x) k := by unfold HeldKey; rw [hk]; exact hh
  rcases settled_of_quiet hI hq hx hy hux huy h1 with h | ⟨_, h⟩
  · exact .inl h
  · refine .inr ?_
    unfold HeldKey at h; rw [hk] at h; exact h

/-- C38 for revocation updates, in networks where these are never longer than the optimisation threshold. -/
theorem C38_revocations_flood_unoptimised (N : NetConf L) (hM : Mesh N) (hsmall : ∀ x ∈ N.ids, ∀ o, (N.conf x).jsonLen o ≤ (N.conf x).optThreshold)
    (s : Net) (k : GossipID) (hk : k.type = .REV_INIT) (hs : RoundStart N k s)
    (es : List NEvent) (hes : ∀ e ∈ es, e.noWipe = true) (hq : Quiet N (nrun N s es)) (x y : Str) (hx : x ∈ N.ids) (hy : y ∈ N.ids)
    (hux : (nrun N s es).up x) (huy : (nrun N s es).up y) (hh : ((nrun N s es).node x).g.storage.revInit.has k = true) :
    ((nrun N s es).node y).g.blacklist.has k.entity = true ∨ ((nrun N s es).node y).g.storage.revInit.has k = true := by
  have hI := nrun_inv hM (.inr (.inr ⟨hk, hsmall⟩)) (hs.inv (.inr hk)) es (.inr hes)
  have h1 : HeldKey ((nrun N s es).node x) k := by unfold HeldKey; rw [hk]; exact hh
  rcases settled_of_quiet hI hq hx hy hux huy h1 with h | ⟨_, h⟩
  · exact .inl h
  · refine .inr ?_
    unfold HeldKey at h; rw [hk] at h; exact h

/-! ### Sample networks -/

/-- Decidable form of `Quiet`. -/
def quietCheck (N : NetConf L) (s : Net) : Bool :=
  s.flight.all (fun m => !N.ids.contains m.dst) && N.ids.all fun x => (s.node x).threads.all fun t => t.frames.isEmpty

theorem quiet_of_check {N : NetConf L} {s : Net} (h : quietCheck N s = true) : Quiet N s := by
  unfold quietCheck at h
  rw [Bool.and_eq_true] at h
  refine ⟨fun m hm => ?_, fun x hx _ t ht => ?_⟩
  · have := List.all_eq_true.1 h.1 m hm; simpa using this
  · have := List.all_eq_true.1 (List.all_eq_true.1 h.2 x hx) t ht; simpa using this

namespace Ref

/-- Gossipers G1 and G2. -/
def mesh : NetConf lib where
  ids := [go!"G1", go!"G2"]
  conf := fun x => { gconf with crypto := conf x, connected := if x = go!"G1" then [go!"G2"] else [go!"G1"] }

theorem mesh_ok : Mesh mesh where
  keys := fun x _ y _ => ⟨rfl, rfl, fun _ => rfl, fun _ => rfl⟩
  threshold := fun x _ => (by decide : (0 : Int) < 2)
  connected := by
    intro x hx y hy hne
    simp only [mesh, List.mem_cons, List.not_mem_nil, or_false] at hx hy ⊢
    rcases hx with rfl | rfl <;> rcases hy with rfl | rfl
    · exact absurd rfl hne
    · simp
    · simp
    · exact absurd rfl hne

/-- `n` steps of goroutine `i` at gossiper `x`. -/
def nruns (x : Str) (i n : Nat) : List NEvent := List.replicate n (.node x (clk, .run i))

/-- L1 posts an STH to G1, which reaches G2 and comes back. -/
def floodHist : List NEvent :=
  [.node (go!"G1") (clk, .recv 10 sth)] ++ nruns (go!"G1") 0 14 ++ [.deliver 0 clk] ++ nruns (go!"G2") 0 14 ++
  [.deliver 0 clk] ++ nruns (go!"G1") 1 5

/-- L1 posts a second STH to G1 only. -/
def equivHist : List NEvent :=
  floodHist ++ [.node (go!"G1") (clk, .recv 10 sth')] ++ nruns (go!"G1") 2 16 ++ [.deliver 0 clk] ++ nruns (go!"G2") 1 12 ++
  [.deliver 0 clk] ++ nruns (go!"G1") 3 5

/-- G2 holds the STH that was posted to G1. -/
example : ((nrun mesh Net.init floodHist).node (go!"G2")).g.storage.sthInit.has sth.getID = true := by
  have hq : Quiet mesh (nrun mesh Net.init floodHist) := quiet_of_check (by decide +kernel)
  have hb : ((nrun mesh Net.init floodHist).node (go!"G2")).g.blacklist.has sth.getID.entity = false := by decide +kernel
  have hs : RoundStart mesh sth.getID Net.init := by
    refine ⟨⟨[], rfl⟩, fun _ _ _ => ⟨rfl, rfl⟩, ?_, ?_⟩ <;> intro x _ _ t ht <;> cases ht
  rcases C38_statements_flood mesh mesh_ok Net.init sth.getID rfl hs floodHist (by decide +kernel) hq (go!"G1") (go!"G2")
    (by decide) (by decide) (by show _ = _; decide +kernel) (by show _ = _; decide +kernel) (by decide +kernel) with h | h
  · rw [hb] at h; cases h
  · exact h

/-- G2, which never saw the second STH, blacklists L1. -/
example : ((nrun mesh Net.init equivHist).node (go!"G2")).g.blacklist.has (go!"L1") = true := by
  have hq : Quiet mesh (nrun mesh Net.init equivHist) := quiet_of_check (by decide +kernel)
  have ho : ((nrun mesh Net.init equivHist).node (go!"G1")).g.storage.conInit.get ⟨go!"05", .CON_INIT, go!"L1"⟩ =
      some (generateCON clk sth sth') := by decide +kernel
  have hp : (generateCON clk sth sth').payload.p0 = go!"L1" := by decide +kernel
  rw [← hp]
  exact C37_conflict_proofs_reach_everyone mesh mesh_ok (nrun mesh Net.init equivHist) ⟨equivHist, rfl⟩ hq (go!"G1") (go!"G2") (by decide) (by decide)
    (by show _ = _; decide +kernel) (by show _ = _; decide +kernel) _ _ ho

end Ref
end CTng
