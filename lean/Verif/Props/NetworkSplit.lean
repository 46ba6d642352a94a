import Verif.Proofs.NetworkSplit
/-
C105: a logger that shows different tree heads to different gossipers is convicted by all of them, under every schedule.
-/
set_option autoImplicit false

namespace CTng
variable {L : Lib}

/-! ### One step of the network -/

/-- The object arrives at gossiper `y` in this step, from outside or from another gossiper. -/
def Arrives (N : NetConf L) (s : Net) (ev : NEvent) (y : Str) (o : GossipObj) : Prop :=
  y ∈ N.ids ∧
  match ev with
  | .node x e => y = x ∧ ∃ n, e.2 = .recv n o
  | .deliver i _ => ∃ m, s.flight[i]? = some m ∧ m.dst = y ∧ m.route ∈ objRoutes ∧ m.body = .obj o

structure NStep (N : NetConf L) (s : Net) (ev : NEvent) (s' : Net) : Prop where
  up : ∀ y, s'.up y → s.up y
  act : ∀ y ∈ N.ids, s'.up y → Act (N.conf y) (s.node y) (s'.node y)
  carry : ∀ y ∈ N.ids, ∀ f (o : GossipObj), o.type = .STH_INIT → HasFrame (s'.node y) f → Carry o f →
    (∃ f0, HasFrame (s.node y) f0 ∧ Carry o f0) ∨ Arrives N s ev y o
  recv : ∀ y o, Arrives N s ev y o → s'.up y → ∃ n, Pending (s'.node y) (.recv n o)
  arrive : ∀ m ∈ s.flight, m.dst ∈ N.ids → m.route ∈ objRoutes → ∀ o, m.body = .obj o → m ∈ s'.flight ∨ Arrives N s ev m.dst o
  post : ∀ m ∈ s'.flight, ∀ o : GossipObj, o.type = .STH_INIT → m.body = .obj o →
    m ∈ s.flight ∨ ∃ x ∈ N.ids, s.up x ∧ Pending (s.node x) (.sendPeers o)
  sent : ∀ x ∈ N.ids, s'.up x → ∀ o : GossipObj, o.type = .STH_INIT → (∃ f, Sends o f ∧ Pending (s.node x) f) →
    (∃ f, Sends o f ∧ Pending (s'.node x) f) ∨
      ∀ y ∈ (N.conf x).connected, (⟨y, endpointOf .STH_INIT, .obj o⟩ : Msg) ∈ s'.flight
  wipe : ev.noWipe = true → ∀ y ∈ N.ids, HasFrame (s'.node y) .wipe → HasFrame (s.node y) .wipe

theorem act_same (cf : GConf L) (c : CState) : Act cf c c := .idle rfl rfl rfl (fun _ h => h) (fun _ h => .inl h)

theorem nodeStep_step (N : NetConf L) (s s1 : Net) (ev : NEvent) (z : Str) (hz : z ∈ N.ids) (e : Clock × CEvent)
    (hr : ∀ x, CReach (N.conf x) (s.node x)) (hn : s1.node = s.node) (hsub : ∀ m ∈ s1.flight, m ∈ s.flight)
    (harr : ∀ y o, Arrives N s ev y o ↔ (y = z ∧ ∃ n, e.2 = .recv n o))
    (hfl : ∀ m ∈ s.flight, m.dst ∈ N.ids → m.route ∈ objRoutes → ∀ o, m.body = .obj o → m ∈ s1.flight ∨ Arrives N s ev m.dst o)
    (hw : ev.noWipe = true → e.2 ≠ .periodic) :
    NStep N s ev (nodeStep N s1 z e) := by
  have hnode := nodeStep_node N s1 z e hz
  rw [hn] at hnode
  have hflight : ∀ m, m ∈ s1.flight → m ∈ (nodeStep N s1 z e).flight := by
    intro m hm; simp only [nodeStep, if_pos hz]; exact List.mem_append_left _ hm
  have hself : (nodeStep N s1 z e).node z = cstep (N.conf z) (s.node z) e := by rw [hnode, if_pos rfl]
  have hother : ∀ y, y ≠ z → (nodeStep N s1 z e).node y = s.node y := fun y hy => by rw [hnode, if_neg hy]
  have hact : ∀ y ∈ N.ids, (nodeStep N s1 z e).up y → Act (N.conf y) (s.node y) ((nodeStep N s1 z e).node y) := by
    intro y hy hu
    by_cases e' : y = z
    · subst e'
      rw [hself]
      refine cstep_act _ _ _ ?_
      unfold Net.up at hu; rw [hself] at hu; exact hu
    · rw [hother y e']; exact act_same _ _
  have hup : ∀ y, (nodeStep N s1 z e).up y → s.up y := by
    intro y hy
    by_cases e' : y = z
    · subst e'; unfold Net.up at hy ⊢; rw [hself] at hy; exact up_before _ hy
    · unfold Net.up at hy ⊢; rw [hother y e'] at hy; exact hy
  refine ⟨hup, hact, ?_, ?_, ?_, ?_, ?_, ?_⟩
  · intro y hy f o ht hf hc
    by_cases e' : y = z
    · subst e'
      rw [hself] at hf
      rcases cstep_carry (s.node y) (hr y).sound e f o ht hf hc with h | h
      · exact .inl h
      · exact .inr ((harr y o).2 ⟨rfl, h⟩)
    · rw [hother y e'] at hf; exact .inl ⟨f, hf, hc⟩
  · intro y o ha hu
    obtain ⟨rfl, n, hn'⟩ := (harr y o).1 ha
    refine ⟨n, ?_⟩
    rw [hself]
    have := cstep_recv (N.conf y) (s.node y) e.1 n o (hup y hu)
    rw [← hn'] at this
    exact this
  · intro m hm hd hro o hb
    rcases hfl m hm hd hro o hb with h | h
    · exact .inl (hflight m h)
    · exact .inr h
  · intro m hm o ht hb
    simp only [nodeStep, if_pos hz, hn] at hm
    rcases List.mem_append.1 hm with h | h
    · exact .inl (hsub m h)
    · refine .inr ⟨z, hz, ?_, cstep_post (s.node z) (hr z).sound e m o ht h hb⟩
      unfold Net.up
      cases hcr : (s.node z).g.crashed with
      | false => rfl
      | true => rw [cstep_crashed _ _ _ hcr] at h; simp [postsOf] at h
  · intro x hx hu o ht h
    have := send_act (cf := N.conf x) (o := o) (.inr (.inl ht)) (by rw [ht]; intro h; cases h) (hact x hx hu) h
    rcases this with h | h
    · exact .inl h
    · by_cases e' : x = z
      · subst e'
        refine .inr fun y hy => ?_
        have := h y hy
        rw [hself] at this
        simp only [nodeStep, if_pos hz, hn]
        rw [ht] at this
        exact List.mem_append_right _ this
      · refine .inr fun y hy => ?_
        have := h y hy
        rw [hother x e'] at this
        simp [postsOf] at this
  · intro hev y hy hwf
    by_cases e' : y = z
    · subst e'; rw [hself] at hwf; exact wipe_cstep (hw hev) hwf
    · rw [hother y e'] at hwf; exact hwf

theorem nstep_step (N : NetConf L) (s : Net) (ev : NEvent) (hr : ∀ x, CReach (N.conf x) (s.node x)) : NStep N s ev (nstep N s ev) := by
  cases ev with
  | node x e =>
    by_cases hx : x ∈ N.ids
    · refine nodeStep_step N s s (.node x e) x hx e hr rfl (fun _ h => h) ?_ (fun m hm _ _ _ _ => .inl hm) ?_
      · intro y o
        simp only [Arrives]
        constructor
        · exact fun h => h.2
        · exact fun h => ⟨h.1 ▸ hx, h⟩
      · intro h hp
        obtain ⟨clk, ev⟩ := e
        simp only at hp; subst hp; cases h
    · have : nstep N s (.node x e) = s := by simp only [nstep, nodeStep, if_neg hx]
      rw [this]
      refine ⟨fun _ h => h, fun y _ _ => act_same _ _, fun y _ f o _ hf hc => .inl ⟨f, hf, hc⟩, ?_, fun m hm _ _ _ _ => .inl hm,
        fun m hm _ _ _ => .inl hm, fun x _ _ o _ h => .inl h, fun _ y _ h => h⟩
      rintro y o ⟨hy, rfl, _⟩
      exact absurd hy hx
  | deliver i clk =>
    cases hi : s.flight[i]? with
    | none =>
      have : nstep N s (.deliver i clk) = s := by simp only [nstep, hi]
      rw [this]
      refine ⟨fun _ h => h, fun y _ _ => act_same _ _, fun y _ f o _ hf hc => .inl ⟨f, hf, hc⟩, ?_, fun m hm _ _ _ _ => .inl hm,
        fun m hm _ _ _ => .inl hm, fun x _ _ o _ h => .inl h, fun _ y _ h => h⟩
      rintro y o ⟨hy, m, hm, _⟩
      rw [hi] at hm; cases hm
    | some m =>
      by_cases hd : m.dst ∈ N.ids
      · cases hre : routeEvent (N.conf m.dst) m with
        | none =>
          have : nstep N s (.deliver i clk) = { s with flight := s.flight.eraseIdx i } := by simp only [nstep, hi, if_pos hd, hre]
          rw [this]
          have hno : ∀ o, m.route ∈ objRoutes → m.body ≠ .obj o := by
            intro o hro hb
            unfold routeEvent at hre
            rw [hb] at hre
            simp [hro] at hre
          refine ⟨fun _ h => h, fun y _ _ => act_same _ _, fun y _ f o _ hf hc => .inl ⟨f, hf, hc⟩, ?_, ?_,
            fun m' hm' _ _ _ => .inl (List.mem_of_mem_eraseIdx hm'), fun x _ _ o _ h => .inl h, fun _ y _ h => h⟩
          · rintro y o ⟨hy, m', hm', _, hro, hb⟩
            rw [hi] at hm'; cases hm'
            exact absurd hb (hno o hro)
          · intro m' hm' _ hro o hb
            rcases mem_eraseIdx_or hi hm' with h | h
            · exact .inl h
            · subst h; exact absurd hb (hno o hro)
        | some cev =>
          have : nstep N s (.deliver i clk) = nodeStep N { s with flight := s.flight.eraseIdx i } m.dst (clk, cev) := by
            simp only [nstep, hi, if_pos hd, hre]
          rw [this]
          refine nodeStep_step N s _ (.deliver i clk) m.dst hd (clk, cev) hr rfl (fun m' h => List.mem_of_mem_eraseIdx h) ?_ ?_
            (fun _ => routeEvent_periodic hre)
          · intro y o
            constructor
            · rintro ⟨hy, m', hm', hdst, hro, hb⟩
              rw [hi] at hm'; cases hm'
              refine ⟨hdst.symm, ?_⟩
              unfold routeEvent at hre
              rw [hb] at hre
              simp only [if_pos hro, Option.some.injEq] at hre
              exact ⟨_, hre.symm⟩
            · rintro ⟨rfl, n, hn⟩
              simp only at hn
              subst hn
              refine ⟨hd, m, hi, rfl, ?_⟩
              unfold routeEvent at hre
              split at hre
              · rename_i o' hb
                split at hre
                · rename_i hro
                  simp at hre
                  exact ⟨hro, by rw [hb, hre.2]⟩
                · cases hre
              · split at hre
                · cases hre
                · split at hre <;> cases hre
          · intro m' hm' _ hro o hb
            rcases mem_eraseIdx_or hi hm' with h | h
            · exact .inl h
            · subst h; exact .inr ⟨hd, m', hi, rfl, hro, hb⟩
      · have : nstep N s (.deliver i clk) = s := by simp only [nstep, hi, if_neg hd]
        rw [this]
        refine ⟨fun _ h => h, fun y _ _ => act_same _ _, fun y _ f o _ hf hc => .inl ⟨f, hf, hc⟩, ?_, fun m hm _ _ _ _ => .inl hm,
          fun m hm _ _ _ => .inl hm, fun x _ _ o _ h => .inl h, fun _ y _ h => h⟩
        rintro y o ⟨hy, m', hm', hdst, _⟩
        rw [hi] at hm'; cases hm'
        rw [hdst] at hd
        exact absurd hy hd

/-! ### The two phases of a split view -/

/-- The object is a version of the tree head that the key stands for: it verifies at the gossipers of the network. -/
structure Version (N : NetConf L) (k : GossipID) (o : GossipObj) : Prop where
  id : o.getID = k
  ok : ∀ x ∈ N.ids, o.verify (N.conf x).crypto = .ok

/-- What the gossiper holds under the key. -/
def slotOf (s : Net) (k : GossipID) (x : Str) : Option GossipObj := ((s.node x).g.storage.objs .STH_INIT).get k

structure SplitBase (N : NetConf L) (k : GossipID) (signer : Str) (s : Net) : Prop where
  reach : NReach N s
  noWipe : ∀ x ∈ N.ids, s.up x → ¬ HasFrame (s.node x) .wipe
  sends : ∀ x ∈ N.ids, s.up x → ∀ f o, HasFrame (s.node x) f → Sends o f → o.getID = k → HeldKey (s.node x) k
  slot : ∀ x ∈ N.ids, s.up x → ∀ v, slotOf s k x = some v → v.signer = signer
  frame : ∀ x ∈ N.ids, s.up x → ∀ f o, HasFrame (s.node x) f → Carry o f → Version N k o → o.signer = signer
  flight : ∀ m ∈ s.flight, ∀ o, m.body = .obj o → Version N k o → o.signer = signer

/-- Nobody has passed on a version yet. -/
structure SplitA (N : NetConf L) (k : GossipID) (view : Str → Option Sig2) (shown : Str → GossipObj → Prop) (s : Net) : Prop where
  slot : ∀ x ∈ N.ids, s.up x → ∀ v, slotOf s k x = some v → view x = some v.sig
  frame : ∀ x ∈ N.ids, s.up x → ∀ f o, HasFrame (s.node x) f → Carry o f → Version N k o → view x = some o.sig
  flight : ∀ m ∈ s.flight, ∀ o, m.body = .obj o → ¬ Version N k o
  held : ∀ x ∈ N.ids, s.up x → HeldKey (s.node x) k → ∃ o, Version N k o ∧ ∃ f, Sends o f ∧ Pending (s.node x) f
  shown : ∀ x ∈ N.ids, s.up x → ∀ o, shown x o → (∃ f, Learns o f ∧ Pending (s.node x) f) ∨ HeldKey (s.node x) k ∨
    Caught (N.conf x) (s.node x) k.entity

/-- A version with other signatures. -/
structure Bad (N : NetConf L) (k : GossipID) (signer : Str) (sg : Sig2) (o : GossipObj) : Prop where
  version : Version N k o
  signer : o.signer = signer
  sig : o.sig ≠ sg

/-- Another version is on its way to gossiper `x`, or it is caught. -/
def Progress (N : NetConf L) (k : GossipID) (signer : Str) (sg : Sig2) (s : Net) (x : Str) : Prop :=
  (∃ o, Bad N k signer sg o ∧ ∃ m ∈ s.flight, m.dst = x ∧ m.route ∈ objRoutes ∧ m.body = .obj o) ∨
  (∃ o, Bad N k signer sg o ∧ ∃ f, Learns o f ∧ Pending (s.node x) f) ∨
  (∃ o, Bad N k signer sg o ∧ Pending (s.node x) (.initCon o)) ∨
  Caught (N.conf x) (s.node x) k.entity

/-- Gossiper `x` was the first to pass on a version, the one with signatures `sg`. -/
structure SplitB (N : NetConf L) (k : GossipID) (signer : Str) (view : Str → Option Sig2) (shown : Str → GossipObj → Prop)
    (x : Str) (sg : Sig2) (s : Net) : Prop where
  mem : x ∈ N.ids
  view : view x = some sg
  held : HeldKey (s.node x) k
  slot : ∀ v, slotOf s k x = some v → v.sig = sg
  store : ∀ g, HasFrame (s.node x) (.store g) → Version N k g → g.sig = sg
  others : ∀ y ∈ N.ids, s.up y → ∀ v, slotOf s k y = some v → v.sig ≠ sg →
    Progress N k signer sg s x ∨ ∃ o, Bad N k signer sg o ∧ ∃ f, Sends o f ∧ Pending (s.node y) f
  shown : ∀ y ∈ N.ids, s.up y → ∀ o, shown y o → o.sig ≠ sg →
    Progress N k signer sg s x ∨ (∃ o, Bad N k signer sg o ∧ ∃ f, Learns o f ∧ Pending (s.node y) f) ∨
    (∃ o, Bad N k signer sg o ∧ ∃ f, Sends o f ∧ Pending (s.node y) f) ∨
    (∃ o, Bad N k signer sg o ∧ Pending (s.node y) (.initCon o) ∧ HeldKey (s.node y) k) ∨
    Caught (N.conf y) (s.node y) k.entity

theorem con_inv {N : NetConf L} (hM : Mesh N) {s : Net} (hs : NReach N s) {x : Str} (hx : x ∈ N.ids) (hu : s.up x) :
    ∀ k : GossipID, k.type = .CON_INIT → NodeInv (N.conf x) (s.node x) k := by
  intro k hk
  obtain ⟨es, rfl⟩ := hs
  exact (nrun_inv hM (.inl hk) netInv_init es (.inl hk)).inv x hx hu

theorem NReach.step {N : NetConf L} {s : Net} (h : NReach N s) (e : NEvent) : NReach N (nstep N s e) := by
  obtain ⟨es, rfl⟩ := h
  exact ⟨es ++ [e], by simp [nrun, List.foldl_append]⟩

theorem version_of {N : NetConf L} (hM : Mesh N) {k : GossipID} {o : GossipObj} {x : Str} (hx : x ∈ N.ids) (hid : o.getID = k)
    (hv : o.verify (N.conf x).crypto = .ok) : Version N k o :=
  ⟨hid, fun y hy => by rw [← verify_congr (hM.keys x hx y hy)]; exact hv⟩

section
variable {N : NetConf L} {k : GossipID} {signer : Str} {s s' : Net} {ev : NEvent}

theorem Version.type {o : GossipObj} (h : Version N k o) (hk : k.type = .STH_INIT) : o.type = .STH_INIT :=
  (congrArg GossipID.type h.id : o.type = k.type).trans hk

theorem heldKey_slot (hk : k.type = .STH_INIT) {x : Str} : HeldKey (s.node x) k ↔ ∃ v, slotOf s k x = some v := by
  rw [heldKey_get, hk]; rfl

theorem slot_version (hM : Mesh N) (hs : NReach N s) {x : Str} (hx : x ∈ N.ids) {v : GossipObj} (h : slotOf s k x = some v) :
    Version N k v := by
  obtain ⟨h1, _, h3⟩ := (hs.node x).sound.storage.objs .STH_INIT k v h
  exact version_of hM hx h1 h3

theorem SplitBase.step (hM : Mesh N) (hk : k.type = .STH_INIT) (hB : SplitBase N k signer s) (hev : ev.noWipe = true)
    (hst : NStep N s ev s') (hs' : NReach N s') (hsg : ∀ y o, Arrives N s ev y o → Version N k o → o.signer = signer) :
    SplitBase N k signer s' where
  reach := hs'
  noWipe := fun x hx hu hw => hB.noWipe x hx (hst.up x hu) (hst.wipe hev x hx hw)
  sends := fun x hx hu =>
    sends_act (hB.reach.node x).sound (.inr (hB.noWipe x hx (hst.up x hu))) (hst.act x hx hu) hk (hB.sends x hx (hst.up x hu))
  slot := by
    intro x hx hu v hv
    rcases slot_act (hB.reach.node x).sound (hst.act x hx hu) hk hv with h | ⟨h1, h2, h3, _⟩
    · exact hB.slot x hx (hst.up x hu) v h
    · exact hB.frame x hx (hst.up x hu) _ v h1.has (.inl (by simp [Learns])) (version_of hM hx h2 h3)
  frame := by
    intro x hx hu f o hf hc hv
    rcases hst.carry x hx f o (hv.type hk) hf hc with ⟨f0, h0, hc0⟩ | h
    · exact hB.frame x hx (hst.up x hu) f0 o h0 hc0 hv
    · exact hsg x o h hv
  flight := by
    intro m hm o hb hv
    rcases hst.post m hm o (hv.type hk) hb with h | ⟨x, hx, hu, h⟩
    · exact hB.flight m h o hb hv
    · exact hB.frame x hx hu _ o h.has (.inr (.inr (.inr (.inr rfl)))) hv

theorem Progress.step (hM : Mesh N) (hk : k.type = .STH_INIT) (hB : SplitBase N k signer s) (hne : signer ≠ []) {sg : Sig2} {x : Str}
    (hx : x ∈ N.ids) (hst : NStep N s ev s') (hu : s'.up x) (hheld : HeldKey (s.node x) k)
    (hslot : ∀ v, slotOf s k x = some v → v.sig = sg) (hstore : ∀ g, HasFrame (s.node x) (.store g) → Version N k g → g.sig = sg)
    (h : Progress N k signer sg s x) : Progress N k signer sg s' x := by
  have hso := (hB.reach.node x).sound
  have hu0 := hst.up x hu
  have ha := hst.act x hx hu
  have hca : Caught (N.conf x) (s.node x) k.entity → Progress N k signer sg s' x := fun h =>
    .inr (.inr (.inr (h.act hso (con_inv hM hB.reach hx hu0) (hM.threshold x hx) ha)))
  rcases h with ⟨o, ho, m, hm, hd, hro, hb⟩ | ⟨o, ho, h⟩ | ⟨o, ho, h⟩ | h
  · rcases hst.arrive m hm (hd ▸ hx) hro o hb with h | h
    · exact .inl ⟨o, ho, m, h, hd, hro, hb⟩
    · rw [hd] at h
      obtain ⟨n, h⟩ := hst.recv x o h hu
      exact .inr (.inl ⟨o, ho, .recv n o, .inl ⟨n, rfl⟩, h⟩)
  · have hcar : Carrier (N.conf x) k o := ⟨ho.version.id, ho.version.ok x hx, .inr (by rw [ho.signer]; exact hne)⟩
    rcases learnS_act hso (hM.threshold x hx) hk hcar ha h with h | h | ⟨v, h1, h2⟩ | ⟨_, h⟩ | ⟨h, _⟩
    · exact .inr (.inl ⟨o, ho, h⟩)
    · exact hca (.inl h)
    · exact absurd (h2.symm.trans (hslot v h1)) ho.sig
    · exact .inr (.inr (.inl ⟨o, ho, h⟩))
    · exact absurd (hstore o h ho.version) ho.sig
  · have hcar : Carrier (N.conf x) k o := ⟨ho.version.id, ho.version.ok x hx, .inr (by rw [ho.signer]; exact hne)⟩
    rcases initCon_act hso ha hk hcar hheld h with h | h
    · exact .inr (.inr (.inl ⟨o, ho, h⟩))
    · exact .inr (.inr (.inr h))
  · exact hca h

variable {view : Str → Option Sig2} {shown shown' : Str → GossipObj → Prop}

/-- What was shown to gossipers from outside is what they are meant to see. -/
def ShownOK (N : NetConf L) (k : GossipID) (signer : Str) (view : Str → Option Sig2) (shown : Str → GossipObj → Prop) : Prop :=
  ∀ y o, shown y o → y ∈ N.ids ∧ Version N k o ∧ o.signer = signer ∧ view y = some o.sig

theorem sends_step (hM : Mesh N) (hk : k.type = .STH_INIT) {sg : Sig2} {x y : Str} (hx : x ∈ N.ids) (hy : y ∈ N.ids) (hxy : y ≠ x)
    (hst : NStep N s ev s') (hu : s'.up y) {o : GossipObj} (ho : Bad N k signer sg o) (h : ∃ f, Sends o f ∧ Pending (s.node y) f) :
    Progress N k signer sg s' x ∨ ∃ o, Bad N k signer sg o ∧ ∃ f, Sends o f ∧ Pending (s'.node y) f := by
  rcases hst.sent y hy hu o (ho.version.type hk) h with h | h
  · exact .inr ⟨o, ho, h⟩
  · refine .inl (.inl ⟨o, ho, _, h x (hM.connected y hy x hx hxy), rfl, ?_, rfl⟩)
    simp [endpointOf, objRoutes]

theorem SplitB.step (hM : Mesh N) (hk : k.type = .STH_INIT) (hB : SplitBase N k signer s) (hB' : SplitBase N k signer s') (hne : signer ≠ [])
    {sg : Sig2} {x : Str} (hst : NStep N s ev s') (hux : s'.up x)
    (hok : ShownOK N k signer view shown') (hnew : ∀ y o, shown' y o → shown y o ∨ Arrives N s ev y o)
    (h : SplitB N k signer view shown x sg s) : SplitB N k signer view shown' x sg s' := by
  have hx := h.mem
  have hux0 := hst.up x hux
  have hso := fun y => (hB.reach.node y).sound
  have hprog : Progress N k signer sg s x → Progress N k signer sg s' x :=
    Progress.step hM hk hB hne hx hst hux h.held h.slot h.store
  have hothers : ∀ y ∈ N.ids, s'.up y → ∀ v, slotOf s k y = some v → v.sig ≠ sg →
      Progress N k signer sg s' x ∨ ∃ o, Bad N k signer sg o ∧ ∃ f, Sends o f ∧ Pending (s'.node y) f := by
    intro y hy hu v hv hsg
    have hyx : y ≠ x := by rintro rfl; exact hsg (h.slot v hv)
    rcases h.others y hy (hst.up y hu) v hv hsg with h1 | ⟨o, ho, h1⟩
    · exact .inl (hprog h1)
    · exact sends_step hM hk hx hy hyx hst hu ho h1
  refine ⟨hx, h.view, h.held.act (hso x) (.inr (hB.noWipe x hx hux0)) (hst.act x hx hux), ?_, ?_, ?_, ?_⟩
  · intro v hv
    rcases slot_act (hso x) (hst.act x hx hux) hk hv with h1 | ⟨h1, h2, h3, _⟩
    · exact h.slot v h1
    · exact h.store v h1.has (version_of hM hx h2 h3)
  · intro g hg hv
    cases hst.act x hx hux with
    | idle h1 h2 h3 keep rev =>
      rcases rev _ hg with h4 | h4
      · exact h.store g h4 hv
      · cases h4
    | exec clk f hp hgs keep next rev =>
      rcases rev _ hg with h4 | ⟨new, hn, hm⟩
      · exact h.store g h4 hv
      · obtain ⟨rfl, hmal⟩ := store_new clk _ f g new hn hm (.inl (hv.type hk)) ((hso x).wt f hp.has)
        obtain ⟨v, hsl⟩ := (heldKey_slot hk).1 h.held
        have h1 : v.signer = signer := hB.slot x hx hux0 v hsl
        have h2 : g.signer = signer := hB.frame x hx hux0 _ g hp.has (.inl (by simp [Learns])) hv
        have hgo : getObject (s.node x).g g.getID .STH_INIT = v := by
          have : ((s.node x).g.storage.objs .STH_INIT).get g.getID = some v := by rw [hv.id]; exact hsl
          simp [getObject, this]
        unfold isMalicious at hmal
        rw [hv.type hk] at hmal
        simp [hgo, h1, h2] at hmal
        rw [hmal]; exact h.slot v hsl
  · intro y hy hu v hv hsg
    rcases slot_act (hso y) (hst.act y hy hu) hk hv with h1 | ⟨h1, h2, h3, h4⟩
    · exact hothers y hy hu v h1 hsg
    · exact .inr ⟨v, ⟨version_of hM hy h2 h3, hB'.slot y hy hu v hv, hsg⟩, _, .inl rfl, h4⟩
  · intro y hy hu o hsh hsg
    obtain ⟨_, hver, hsgn, hview⟩ := hok y o hsh
    have hyx : y ≠ x := by
      rintro rfl; rw [h.view] at hview; exact hsg (Option.some.inj hview).symm
    have hu0 := hst.up y hu
    have hca : Caught (N.conf y) (s.node y) k.entity → Caught (N.conf y) (s'.node y) k.entity := fun h =>
      h.act (hso y) (con_inv hM hB.reach hy hu0) (hM.threshold y hy) (hst.act y hy hu)
    have hcarr : ∀ o, Bad N k signer sg o → Carrier (N.conf y) k o := fun o ho =>
      ⟨ho.version.id, ho.version.ok y hy, .inr (by rw [ho.signer]; exact hne)⟩
    rcases hnew y o hsh with h0 | h0
    · rcases h.shown y hy hu0 o h0 hsg with h1 | ⟨o1, ho, h1⟩ | ⟨o1, ho, h1⟩ | ⟨o1, ho, h1, h2⟩ | h1
      · exact .inl (hprog h1)
      · rcases learnS_act (hso y) (hM.threshold y hy) hk (hcarr o1 ho) (hst.act y hy hu) h1 with h1 | h1 | ⟨v, h1, h2⟩ | ⟨h1, h2⟩ | ⟨_, h1⟩
        · exact .inr (.inl ⟨o1, ho, h1⟩)
        · exact .inr (.inr (.inr (.inr (hca (.inl h1)))))
        · rcases hothers y hy hu v h1 (by rw [h2]; exact ho.sig) with h3 | h3
          · exact .inl h3
          · exact .inr (.inr (.inl h3))
        · have hm := malicious_held (by rw [ho.signer]; exact hne) h1
          rw [ho.version.id, ho.version.type hk, ← hk] at hm
          exact .inr (.inr (.inr (.inl ⟨o1, ho, h2, HeldKey.act (hso y) (.inr (hB.noWipe y hy hu0)) (hst.act y hy hu) hm⟩)))
        · exact .inr (.inr (.inl ⟨o1, ho, _, .inl rfl, h1⟩))
      · rcases sends_step hM hk hx hy hyx hst hu ho h1 with h3 | h3
        · exact .inl h3
        · exact .inr (.inr (.inl h3))
      · rcases initCon_act (hso y) (hst.act y hy hu) hk (hcarr o1 ho) h2 h1 with h3 | h3
        · exact .inr (.inr (.inr (.inl ⟨o1, ho, h3, h2.act (hso y) (.inr (hB.noWipe y hy hu0)) (hst.act y hy hu)⟩)))
        · exact .inr (.inr (.inr (.inr h3)))
      · exact .inr (.inr (.inr (.inr (hca h1))))
    · obtain ⟨n, hp⟩ := hst.recv y o h0 hu
      exact .inr (.inl ⟨o, ⟨hver, hsgn, hsg⟩, _, .inl ⟨n, rfl⟩, hp⟩)

theorem SplitA.step (hM : Mesh N) (hk : k.type = .STH_INIT) (hB : SplitBase N k signer s) (hB' : SplitBase N k signer s') (hne : signer ≠ [])
    (htwo : ∀ x ∈ N.ids, ∃ y ∈ N.ids, x ≠ y) (hst : NStep N s ev s') (hup : ∀ x ∈ N.ids, view x ≠ none → s'.up x)
    (harr : ∀ y o, Arrives N s ev y o → Version N k o → view y = some o.sig)
    (hok : ShownOK N k signer view shown') (hnew : ∀ y o, shown' y o → shown y o ∨ Arrives N s ev y o)
    (h : SplitA N k view shown s) : SplitA N k view shown' s' ∨ ∃ x sg, SplitB N k signer view shown' x sg s' := by
  have hso := fun y => (hB.reach.node y).sound
  have hslot : ∀ x ∈ N.ids, s'.up x → ∀ v, slotOf s' k x = some v → view x = some v.sig := by
    intro x hx hu v hv
    rcases slot_act (hso x) (hst.act x hx hu) hk hv with h1 | ⟨h1, h2, h3, _⟩
    · exact h.slot x hx (hst.up x hu) v h1
    · exact h.frame x hx (hst.up x hu) _ v h1.has (.inl (by simp [Learns])) (version_of hM hx h2 h3)
  have hframe : ∀ x ∈ N.ids, s'.up x → ∀ f o, HasFrame (s'.node x) f → Carry o f → Version N k o → view x = some o.sig := by
    intro x hx hu f o hf hc hv
    rcases hst.carry x hx f o (hv.type hk) hf hc with ⟨f0, h0, hc0⟩ | h1
    · exact h.frame x hx (hst.up x hu) f0 o h0 hc0 hv
    · exact harr x o h1 hv
  have hshown : ∀ y ∈ N.ids, s'.up y → ∀ o, shown' y o → (∃ f, Learns o f ∧ Pending (s'.node y) f) ∨ HeldKey (s'.node y) k ∨
      Caught (N.conf y) (s'.node y) k.entity := by
    intro y hy hu o hsh
    obtain ⟨_, hver, hsgn, hview⟩ := hok y o hsh
    have hu0 := hst.up y hu
    have hca : Caught (N.conf y) (s.node y) k.entity → Caught (N.conf y) (s'.node y) k.entity := fun h =>
      h.act (hso y) (con_inv hM hB.reach hy hu0) (hM.threshold y hy) (hst.act y hy hu)
    have hhe : HeldKey (s.node y) k → HeldKey (s'.node y) k := fun h =>
      h.act (hso y) (.inr (hB.noWipe y hy hu0)) (hst.act y hy hu)
    rcases hnew y o hsh with h0 | h0
    · rcases h.shown y hy hu0 o h0 with h1 | h1 | h1
      · have hcar : Carrier (N.conf y) k o := ⟨hver.id, hver.ok y hy, .inr (by rw [hsgn]; exact hne)⟩
        rcases learnS_act (hso y) (hM.threshold y hy) hk hcar (hst.act y hy hu) h1 with h1 | h1 | ⟨v, h1, h2⟩ | ⟨h1, h2⟩ | ⟨_, h1⟩
        · exact .inl h1
        · exact .inr (.inr (hca (.inl h1)))
        · exact .inr (.inl (hhe ((heldKey_slot hk).2 ⟨v, h1⟩)))
        · have hm := malicious_held (by rw [hsgn]; exact hne) h1
          rw [hver.id, hver.type hk, ← hk] at hm
          exact .inr (.inl (hhe hm))
        · exact .inr (.inl (hB'.sends y hy hu _ o h1.has (.inl rfl) hver.id))
      · exact .inr (.inl (hhe h1))
      · exact .inr (.inr (hca h1))
    · obtain ⟨n, hp⟩ := hst.recv y o h0 hu
      exact .inl ⟨_, .inl ⟨n, rfl⟩, hp⟩
  by_cases hrel : ∃ m ∈ s'.flight, ∃ o, m.body = .obj o ∧ Version N k o
  · right
    obtain ⟨m, hm, o, hb, hv⟩ := hrel
    rcases hst.post m hm o (hv.type hk) hb with h1 | ⟨x, hx, hux0, hp⟩
    · exact absurd hv (h.flight m h1 o hb)
    · have hview : view x = some o.sig := h.frame x hx hux0 _ o hp.has (.inr (.inr (.inr (.inr rfl)))) hv
      have hux : s'.up x := hup x hx (by rw [hview]; simp)
      have hcmp : ∀ sg, view x = some sg → sg = o.sig := fun sg h1 => by rw [hview] at h1; exact (Option.some.inj h1).symm
      have hothers : ∀ y ∈ N.ids, s'.up y → ∀ v, slotOf s' k y = some v → v.sig ≠ o.sig →
          Progress N k signer o.sig s' x ∨ ∃ o', Bad N k signer o.sig o' ∧ ∃ f, Sends o' f ∧ Pending (s'.node y) f := by
        intro y hy hu v hv' hsg
        have hvy := hslot y hy hu v hv'
        have hyx : y ≠ x := by
          rintro rfl; exact hsg (hcmp _ hvy)
        rcases slot_act (hso y) (hst.act y hy hu) hk hv' with h1 | ⟨h1, h2, h3, h4⟩
        · obtain ⟨o', hvo, f, hf, hpf⟩ := h.held y hy (hst.up y hu) ((heldKey_slot hk).2 ⟨v, h1⟩)
          have hvw := h.frame y hy (hst.up y hu) f o' hpf.has (.inr (.inr hf)) hvo
          have hsig : o'.sig = v.sig := by rw [hvy] at hvw; exact (Option.some.inj hvw).symm
          exact sends_step hM hk hx hy hyx hst hu ⟨hvo, hB.frame y hy (hst.up y hu) f o' hpf.has (.inr (.inr hf)) hvo,
            by rw [hsig]; exact hsg⟩ ⟨f, hf, hpf⟩
        · exact .inr ⟨v, ⟨version_of hM hy h2 h3, hB'.slot y hy hu v hv', hsg⟩, _, .inl rfl, h4⟩
      refine ⟨x, o.sig, hx, hview, ?_, ?_, ?_, hothers, ?_⟩
      · exact (hB.sends x hx hux0 _ o hp.has (.inr (.inr rfl)) hv.id).act (hso x) (.inr (hB.noWipe x hx hux0)) (hst.act x hx hux)
      · exact fun v hv' => hcmp _ (hslot x hx hux v hv')
      · exact fun g hg hvg => hcmp _ (hframe x hx hux _ g hg (.inl (by simp [Learns])) hvg)
      · intro y hy hu o' hsh hsg
        obtain ⟨_, hver, hsgn, hview'⟩ := hok y o' hsh
        rcases hshown y hy hu o' hsh with h1 | h1 | h1
        · exact .inr (.inl ⟨o', ⟨hver, hsgn, hsg⟩, h1⟩)
        · obtain ⟨v, hv'⟩ := (heldKey_slot hk).1 h1
          have h2 := hslot y hy hu v hv'
          rw [hview'] at h2
          rcases hothers y hy hu v hv' (by rw [← Option.some.inj h2]; exact hsg) with h3 | h3
          · exact .inl h3
          · exact .inr (.inr (.inl h3))
        · exact .inr (.inr (.inr (.inr h1)))
  · left
    refine ⟨hslot, hframe, fun m hm o hb hv => hrel ⟨m, hm, o, hb, hv⟩, ?_, hshown⟩
    intro x hx hu hh
    obtain ⟨v, hv⟩ := (heldKey_slot hk).1 hh
    rcases slot_act (hso x) (hst.act x hx hu) hk hv with h1 | ⟨h1, h2, h3, h4⟩
    · obtain ⟨o, hvo, h5⟩ := h.held x hx (hst.up x hu) ((heldKey_slot hk).2 ⟨v, h1⟩)
      rcases hst.sent x hx hu o (hvo.type hk) h5 with h6 | h6
      · exact ⟨o, hvo, h6⟩
      · obtain ⟨y, hy, hxy⟩ := htwo x hx
        exact absurd ⟨_, h6 y (hM.connected x hx y hy hxy), o, rfl, hvo⟩ hrel
    · exact ⟨v, version_of hM hx h2 h3, _, .inl rfl, h4⟩

end

/-! ### Conflict proofs reach the owner -/

/-- A conflict proof against `a` has been posted to the owner, or is about to be. -/
def OwnerDue (cf : GConf L) (c : CState) (a : Str) : Prop :=
  ∃ o : GossipObj, o.type = .CON_INIT ∧ o.payload.p0 = a ∧ o.verify cf.crypto = .ok ∧
    (.owner o ∈ c.g.out ∨ PendingL c [.storeBl o] ∨ PendingL c [.storeNote o] ∨ PendingL c [.sendPeers o, .sendOwner o] ∨
      PendingL c [.sendOwner o])

theorem ownerDue_step (cf : GConf L) {c : CState} {e : Clock × CEvent} {a : Str} (hu : (cstep cf c e).g.crashed = false)
    (h : OwnerDue cf c a) : OwnerDue cf (cstep cf c e) a := by
  obtain ⟨o, ht, hp, hv, h⟩ := h
  refine ⟨o, ht, hp, hv, ?_⟩
  rcases h with h | h | h | h | h
  · obtain ⟨x, hx⟩ := cstep_out cf c e
    exact .inl (by rw [hx]; exact List.mem_append_left _ h)
  · rcases cstep_pendingL cf c e hu _ _ h with h | ⟨_, h⟩
    · exact .inr (.inl h)
    · exact .inr (.inr (.inl (h [.storeNote o] rfl)))
  · rcases cstep_pendingL cf c e hu _ _ h with h | ⟨_, h⟩
    · exact .inr (.inr (.inl h))
    · exact .inr (.inr (.inr (.inl (h [.sendPeers o, .sendOwner o] (by simp [stepFrame, afterStore, ht])))))
  · rcases cstep_pendingL cf c e hu _ _ h with h | ⟨_, h⟩
    · exact .inr (.inr (.inr (.inl h)))
    · exact .inr (.inr (.inr (.inr (h [] rfl))))
  · rcases cstep_pendingL cf c e hu _ _ h with h | ⟨h, _⟩
    · exact .inr (.inr (.inr (.inr h)))
    · refine .inl ?_
      rw [h]
      simp [stepFrame, sendToMonitor, GState.emit]

/-- Every held conflict proof has been posted to the owner, or is about to be. -/
def OwnerInv (N : NetConf L) (s : Net) : Prop :=
  ∀ x ∈ N.ids, s.up x → ∀ k : GossipID, k.type = .CON_INIT → HeldKey (s.node x) k → OwnerDue (N.conf x) (s.node x) k.entity

theorem ownerInv_step (N : NetConf L) (hM : Mesh N) (s : Net) (hR : NReach N s) (e : NEvent) (ih : OwnerInv N s) :
    OwnerInv N (nstep N s e) := by
  intro x hx hu k hk hh
  have hst := nstep_step N s e (fun x => hR.node x)
  have hu0 := hst.up x hu
  have key : (nstep N s e).node x = s.node x ∨ ∃ ce, (nstep N s e).node x = cstep (N.conf x) (s.node x) ce := by
    have ha := nstep_act N s e
    generalize nstep N s e = s' at ha
    cases ha with
    | skip => exact .inl rfl
    | drop i clk m h1 h2 h3 => exact .inl rfl
    | deliver i clk m ev h1 h2 h3 =>
      rw [nodeStep_node N _ m.dst _ h2]
      by_cases e' : x = m.dst
      · subst e'; exact .inr ⟨(clk, ev), by simp⟩
      · exact .inl (by rw [if_neg e'])
    | node z ce hz =>
      rw [nodeStep_node N _ z _ hz]
      by_cases e' : x = z
      · subst e'; exact .inr ⟨ce, by simp⟩
      · exact .inl (by rw [if_neg e'])
  rcases key with key | ⟨ce, key⟩
  · rw [key] at hh ⊢; exact ih x hx hu0 k hk hh
  · by_cases h0 : HeldKey (s.node x) k
    · rw [key]
      refine ownerDue_step (N.conf x) ?_ (ih x hx hu0 k hk h0)
      unfold Net.up at hu; rw [key] at hu; exact hu
    · obtain ⟨o, ho, hp⟩ := new_act (hR.node x).sound (con_inv hM hR hx hu0 k hk) (.inl hk) (hst.act x hx hu) h0 hh
      exact ⟨o, (congrArg GossipID.type ho.id : o.type = k.type).trans hk, congrArg GossipID.entity ho.id, ho.ok,
        .inr (.inl (pendingL_one.2 hp))⟩

theorem ownerInv_run (N : NetConf L) (hM : Mesh N) (es : List NEvent) :
    ∀ s, NReach N s → OwnerInv N s → OwnerInv N (nrun N s es) := by
  induction es with
  | nil => exact fun s _ h => h
  | cons e es ih => exact fun s hR h => ih (nstep N s e) (hR.step e) (ownerInv_step N hM s hR e h)

theorem NReach.ownerInv {N : NetConf L} (hM : Mesh N) {s : Net} (hs : NReach N s) : OwnerInv N s := by
  obtain ⟨es, rfl⟩ := hs
  refine ownerInv_run N hM es Net.init ⟨[], rfl⟩ ?_
  intro x _ _ k hk hh
  unfold HeldKey at hh
  simp [Net.init, CState.init, GState.init, GoMap.has] at hh

/-- Once nothing is under way, a running gossiper that has blacklisted an entity once stored a full accusation against it, or has
posted a conflict proof against it to its owner. -/
theorem owner_of_blacklist (N : NetConf L) (hM : Mesh N) (s : Net) (hs : NReach N s) (hq : Quiet N s) (x : Str) (hx : x ∈ N.ids)
    (hu : s.up x) (a : Str) (ha : (s.node x).g.blacklist.has a = true) :
    (∃ o : GossipObj, o.type = .CON_INIT ∧ o.payload.p0 = a ∧ o.verify (N.conf x).crypto = .ok ∧ .owner o ∈ (s.node x).g.out) ∨
    ∃ h o, s.node x = crun (N.conf x) CState.init h ∧ o.type = .ACC_FULL ∧ o.payload.p0 = a ∧ o.verify (N.conf x).crypto = .ok ∧
      HeldDuring (N.conf x) h o := by
  obtain ⟨h, hst⟩ := hs.node x
  rw [hst] at ha
  obtain ⟨o, ht, hp, hv, n, hheld⟩ := C16_blacklist_needs_evidence (N.conf x) h a ha
  rcases ht with ht | ht
  · left
    have hsplit : crun (N.conf x) CState.init h = crun (N.conf x) (crun (N.conf x) CState.init (h.take n)) (h.drop n) := by
      unfold crun; rw [← List.foldl_append, List.take_append_drop]
    rw [heldAs_iff, ht] at hheld
    have hh := con_crun (N.conf x) (h.drop n) o.getID _ ⟨h.take n, rfl⟩ ((GoMap.has_iff _ _).2 ⟨o, hheld⟩)
    rw [← hsplit, ← hst] at hh
    have hk : HeldKey (s.node x) o.getID := by
      unfold HeldKey
      have : o.getID.type = .CON_INIT := ht
      rw [this]; exact hh
    obtain ⟨o', h1, h2, h3, h4⟩ := hs.ownerInv hM x hx hu o.getID ht hk
    have hno : ∀ f l, ¬ PendingL (s.node x) (f :: l) := by
      rintro f l ⟨t, ht, r, hr⟩
      rw [hq.idle x hx hu t ht] at hr; cases hr
    refine ⟨o', h1, h2.trans hp, h3, ?_⟩
    rcases h4 with h4 | h4 | h4 | h4 | h4
    · exact h4
    all_goals exact absurd h4 (hno _ _)
  · exact .inr ⟨h, o, hst, ht, hp, hv, n, hheld⟩

/-! ### Full accusations reach the owner -/

/-- The full accusation has been posted to the owner, or is about to be. -/
def AccDue (c : CState) (o : GossipObj) : Prop :=
  .owner o ∈ c.g.out ∨ Pending c (.storeBl o) ∨ Pending c (.storeNote o) ∨ Pending c (.sendOwner o)

theorem accDue_step (cf : GConf L) {c : CState} {e : Clock × CEvent} {o : GossipObj} (ht : o.type = .ACC_FULL)
    (hu : (cstep cf c e).g.crashed = false) (h : AccDue c o) : AccDue (cstep cf c e) o := by
  unfold AccDue at h ⊢
  simp only [← pendingL_one] at h ⊢
  rcases h with h | h | h | h
  · obtain ⟨x, hx⟩ := cstep_out cf c e
    exact .inl (by rw [hx]; exact List.mem_append_left _ h)
  · rcases cstep_pendingL cf c e hu _ _ h with h | ⟨_, h⟩
    · exact .inr (.inl h)
    · exact .inr (.inr (.inl (h [.storeNote o] rfl)))
  · rcases cstep_pendingL cf c e hu _ _ h with h | ⟨_, h⟩
    · exact .inr (.inr (.inl h))
    · obtain ⟨t, ht', r, hr⟩ := h [.sendOwner o, .fullNote] (by simp [stepFrame, afterStore, ht])
      exact .inr (.inr (.inr ⟨t, ht', _, hr⟩))
  · rcases cstep_pendingL cf c e hu _ _ h with h | ⟨h, _⟩
    · exact .inr (.inr (.inr h))
    · refine .inl ?_
      rw [h]
      simp [stepFrame, sendToMonitor, GState.emit]

/-- A full accusation that was held at some moment has been posted to the owner, or is about to be. -/
theorem accDue_of_held (cf : GConf L) (h : List (Clock × CEvent)) {o : GossipObj} (ht : o.type = .ACC_FULL)
    (hd : HeldDuring cf h o) (hu : (crun cf CState.init h).g.crashed = false) : AccDue (crun cf CState.init h) o := by
  obtain ⟨n, hd⟩ := hd
  have hgo : ∀ (es : List (Clock × CEvent)) (c : CState), CReach cf c → (crun cf c es).g.crashed = false →
      ((∃ n, (crun cf c (es.take n)).g.storage.accFull.get o.getID = some o) ∧ c.g.storage.accFull.get o.getID ≠ some o ∨ AccDue c o) →
      AccDue (crun cf c es) o := by
    intro es
    induction es with
    | nil =>
      intro c _ _ h
      rcases h with ⟨⟨n, h⟩, h0⟩ | h
      · rw [List.take_nil] at h; exact absurd h h0
      · exact h
    | cons e es ih =>
      intro c hc hu h
      have hu1 : (cstep cf c e).g.crashed = false := by
        cases hcr : (cstep cf c e).g.crashed with
        | false => rfl
        | true =>
          have : (crun cf (cstep cf c e) es).g.crashed = true := by
            clear ih hu h
            generalize cstep cf c e = c' at hcr
            induction es generalizing c' with
            | nil => exact hcr
            | cons e' es ih => exact ih (cstep cf c' e') (by rw [cstep_crashed _ _ _ hcr]; exact hcr)
          rw [show crun cf c (e :: es) = crun cf (cstep cf c e) es from rfl, this] at hu; cases hu
      refine ih (cstep cf c e) (hc.step e) hu ?_
      rcases h with ⟨⟨n, h⟩, h0⟩ | h
      · by_cases h1 : (cstep cf c e).g.storage.accFull.get o.getID = some o
        · right
          rcases cstep_act cf c e hu1 with ⟨hs, _, _, _, _⟩ | ⟨clk, f, hp, hg, _, hnext, _⟩
          · rw [hs] at h1; exact absurd h1 h0
          · obtain ⟨t, ht', hf⟩ := hp
            have hwt : f.wt := hc.sound.wt f ⟨t, ht', List.mem_of_head? hf⟩
            have hss := stepFrame_storage cf clk c.g f hwt
            rw [← hg] at hss
            generalize hst : (cstep cf c e).g.storage = st at hss h1
            cases hss with
            | same => exact absurd h1 h0
            | payload n g _ _ _ => exact absurd h1 h0
            | put g hv hobj hd =>
              have hgo : g = o := by
                by_cases e1 : g.type = .ACC_FULL
                · simp only [Storage.putObj, e1] at h1
                  rw [GoMap.get_set] at h1
                  split at h1
                  · exact Option.some.inj h1
                  · exact absurd h1 h0
                · have := Storage.objs_putObj_ne c.g.storage g.getID g (t' := .ACC_FULL) (t := g.type) (fun h => e1 h.symm)
                  have h2 : (c.g.storage.putObj g.type g.getID g).accFull = c.g.storage.accFull := this
                  rw [h2] at h1; exact absurd h1 h0
              subst hgo
              refine .inr (.inl (hnext [.storeBl g] _ ?_ rfl))
              simp [stepFrame, hv, storeLocked, ht]
            | frag g _ _ =>
              have : (c.g.storage.appendFrag g.type g.getID g).accFull = c.g.storage.accFull := by
                unfold Storage.appendFrag; cases g.type <;> rfl
              rw [this] at h1; exact absurd h1 h0
            | wipe => simp [Storage.init, GoMap.get_empty] at h1
        · left
          refine ⟨?_, h1⟩
          cases n with
          | zero => exact absurd h h0
          | succ n => exact ⟨n, h⟩
      · exact .inr (accDue_step cf ht hu1 h)
  refine hgo h CState.init ⟨[], rfl⟩ hu (.inl ⟨⟨n, ?_⟩, by simp [CState.init, GState.init, Storage.init, GoMap.get_empty]⟩)
  rw [heldAs_iff, ht] at hd
  exact hd

/-- A running gossiper with no handler under way has posted every full accusation it ever held to its owner. -/
theorem accFull_owner {cf : GConf L} {c : CState} {h : List (Clock × CEvent)} (hc : c = crun cf CState.init h)
    {o : GossipObj} (ht : o.type = .ACC_FULL) (hd : HeldDuring cf h o) (hu : c.g.crashed = false)
    (hi : ∀ t ∈ c.threads, t.frames = []) : .owner o ∈ c.g.out := by
  subst hc
  rcases accDue_of_held cf h ht hd hu with h1 | h1 | h1 | h1
  · exact h1
  all_goals exact absurd h1 (not_pending_of_idle hi _)

/-! ### C105 -/

/-- The tree head `o`, which is for key `k` and verifies, is posted to gossiper `x` from outside. -/
def ShownTo (N : NetConf L) (k : GossipID) (es : List NEvent) (x : Str) (o : GossipObj) : Prop :=
  x ∈ N.ids ∧ o.getID = k ∧ o.verify (N.conf x).crypto = .ok ∧ ∃ clk n, NEvent.node x (clk, .recv n o) ∈ es

/-- A moment at which the running gossipers have heard nothing of the tree head yet and no wipe is under way. -/
structure SplitStart (N : NetConf L) (k : GossipID) (s : Net) : Prop where
  reach : NReach N s
  fresh : ∀ x ∈ N.ids, s.up x → (s.node x).g.storage.sthInit.has k = false
  noWipe : ∀ x ∈ N.ids, s.up x → ∀ t ∈ (s.node x).threads, .wipe ∉ t.frames
  frames : ∀ x ∈ N.ids, s.up x → ∀ f o, HasFrame (s.node x) f → Carry o f → o.getID ≠ k
  flight : ∀ m ∈ s.flight, ∀ o, m.body = .obj o → o.getID ≠ k

theorem SplitStart.inv {N : NetConf L} {k : GossipID} {s : Net} (h : SplitStart N k s) (hk : k.type = .STH_INIT) (signer : Str)
    (view : Str → Option Sig2) : SplitBase N k signer s ∧ SplitA N k view (fun _ _ => False) s := by
  have hsl : ∀ x ∈ N.ids, s.up x → ∀ v, slotOf s k x ≠ some v := by
    intro x hx hu v hv
    have h1 := h.fresh x hx hu
    have : (s.node x).g.storage.sthInit.has k = true := (GoMap.has_iff _ _).2 ⟨v, hv⟩
    rw [h1] at this; cases this
  refine ⟨⟨h.reach, ?_, ?_, ?_, ?_, ?_⟩, ⟨?_, ?_, ?_, ?_, ?_⟩⟩
  · rintro x hx hu ⟨t, ht, hf⟩; exact h.noWipe x hx hu t ht hf
  · exact fun x hx hu f o hf hs hid => absurd hid (h.frames x hx hu f o hf (.inr (.inr hs)))
  · exact fun x hx hu v hv => absurd hv (hsl x hx hu v)
  · exact fun x hx hu f o hf hc hv => absurd hv.id (h.frames x hx hu f o hf hc)
  · exact fun m hm o hb hv => absurd hv.id (h.flight m hm o hb)
  · exact fun x hx hu v hv => absurd hv (hsl x hx hu v)
  · exact fun x hx hu f o hf hc hv => absurd hv.id (h.frames x hx hu f o hf hc)
  · exact fun m hm o hb hv => h.flight m hm o hb hv.id
  · intro x hx hu hh
    obtain ⟨v, hv⟩ := (heldKey_slot hk).1 hh
    exact absurd hv (hsl x hx hu v)
  · exact fun x hx hu o h => absurd h id

theorem up_mono {N : NetConf L} (es : List NEvent) : ∀ (s : Net) (x : Str), NReach N s → (nrun N s es).up x → s.up x := by
  induction es with
  | nil => exact fun s x _ h => h
  | cons e es ih => exact fun s x hr h => (nstep_step N s e (fun x => hr.node x)).up x (ih (nstep N s e) x (hr.step e) h)

theorem split_run {N : NetConf L} (hM : Mesh N) {k : GossipID} (hk : k.type = .STH_INIT) {signer : Str} (hne : signer ≠ [])
    (view : Str → Option Sig2) (htwo : ∀ x ∈ N.ids, ∃ y ∈ N.ids, x ≠ y) (es : List NEvent) :
    ∀ (s : Net) (shown : Str → GossipObj → Prop), SplitBase N k signer s →
    (SplitA N k view shown s ∨ ∃ x sg, SplitB N k signer view shown x sg s) → ShownOK N k signer view shown →
    (∀ e ∈ es, e.noWipe = true) → (∀ x o, ShownTo N k es x o → o.signer = signer ∧ view x = some o.sig) →
    (∀ x ∈ N.ids, view x ≠ none → (nrun N s es).up x) →
    SplitBase N k signer (nrun N s es) ∧
    (SplitA N k view (fun x o => shown x o ∨ ShownTo N k es x o) (nrun N s es) ∨
      ∃ x sg, SplitB N k signer view (fun x o => shown x o ∨ ShownTo N k es x o) x sg (nrun N s es)) := by
  induction es with
  | nil =>
    intro s shown hB h _ _ _ _
    refine ⟨hB, ?_⟩
    have he : (fun x o => shown x o ∨ ShownTo N k [] x o) = shown := by
      funext x o
      apply propext
      constructor
      · rintro (h | ⟨_, _, _, _, _, h⟩)
        · exact h
        · cases h
      · exact .inl
    rw [he]; exact h
  | cons e es ih =>
    intro s shown hB h hok hes hv hup
    have hst := nstep_step N s e (fun x => hB.reach.node x)
    have hr' := hB.reach.step e
    have hext : ∀ x ce o n, e = .node x ce → x ∈ N.ids → ce.2 = .recv n o → Version N k o → ShownTo N k (e :: es) x o := by
      rintro x ⟨clk, ce⟩ o n rfl hx hce hvo
      simp only at hce; subst hce
      exact ⟨hx, hvo.id, hvo.ok x hx, clk, n, List.mem_cons_self⟩
    have hsg : ∀ y o, Arrives N s e y o → Version N k o → o.signer = signer := by
      rintro y o ⟨hy, ha⟩ hvo
      cases e with
      | node x ce =>
        obtain ⟨rfl, n, hn⟩ := ha
        exact (hv y o (hext y ce o n rfl hy hn hvo)).1
      | deliver i clk =>
        obtain ⟨m, hm, _, _, hb⟩ := ha
        exact hB.flight m (List.mem_of_getElem? hm) o hb hvo
    have hB' := hB.step hM hk (hes e (by simp)) hst hr' hsg
    have hup' : ∀ x ∈ N.ids, view x ≠ none → (nstep N s e).up x := fun x hx hne =>
      up_mono es (nstep N s e) x hr' (hup x hx hne)
    let shown' : Str → GossipObj → Prop := fun x o => shown x o ∨ ShownTo N k [e] x o
    have hok' : ShownOK N k signer view shown' := by
      rintro y o (h | ⟨hy, hid, hve, clk, n, hm⟩)
      · exact hok y o h
      · simp at hm
        have := hv y o ⟨hy, hid, hve, clk, n, by rw [hm]; exact List.mem_cons_self⟩
        exact ⟨hy, version_of hM hy hid hve, this.1, this.2⟩
    have hnew : ∀ y o, shown' y o → shown y o ∨ Arrives N s e y o := by
      rintro y o (h | ⟨hy, hid, hve, clk, n, hm⟩)
      · exact .inl h
      · simp at hm
        right
        rw [← hm]
        exact ⟨hy, rfl, n, rfl⟩
    have hnext : SplitA N k view shown' (nstep N s e) ∨ ∃ x sg, SplitB N k signer view shown' x sg (nstep N s e) := by
      rcases h with h | ⟨x, sg, h⟩
      · refine h.step hM hk hB hB' hne htwo hst hup' ?_ hok' hnew
        rintro y o ⟨hy, ha⟩ hvo
        cases e with
        | node x ce =>
          obtain ⟨rfl, n, hn⟩ := ha
          exact (hv y o (hext y ce o n rfl hy hn hvo)).2
        | deliver i clk =>
          obtain ⟨m, hm, _, _, hb⟩ := ha
          exact absurd hvo (h.flight m (List.mem_of_getElem? hm) o hb)
      · exact .inr ⟨x, sg, h.step hM hk hB hB' hne hst (hup' x h.mem (by rw [h.view]; simp)) hok' hnew⟩
    have := ih (nstep N s e) shown' hB' hnext hok' (fun e' h' => hes e' (List.mem_cons_of_mem _ h'))
      (fun x o ⟨h1, h2, h3, clk, n, h4⟩ => hv x o ⟨h1, h2, h3, clk, n, List.mem_cons_of_mem _ h4⟩) hup
    have he : (fun x o => shown' x o ∨ ShownTo N k es x o) = (fun x o => shown x o ∨ ShownTo N k (e :: es) x o) := by
      funext x o
      apply propext
      constructor
      · rintro ((h | ⟨h1, h2, h3, clk, n, h4⟩) | ⟨h1, h2, h3, clk, n, h4⟩)
        · exact .inl h
        · simp at h4; exact .inr ⟨h1, h2, h3, clk, n, by rw [h4]; exact List.mem_cons_self⟩
        · exact .inr ⟨h1, h2, h3, clk, n, List.mem_cons_of_mem _ h4⟩
      · rintro (h | ⟨h1, h2, h3, clk, n, h4⟩)
        · exact .inl (.inl h)
        · rcases List.mem_cons.1 h4 with h5 | h5
          · exact .inl (.inr ⟨h1, h2, h3, clk, n, by rw [h5]; simp⟩)
          · exact .inr ⟨h1, h2, h3, clk, n, h5⟩
    rw [he] at this
    exact this

theorem caught_quiet {N : NetConf L} {s : Net} (hq : Quiet N s) {x : Str} (hx : x ∈ N.ids) (hu : s.up x) {a : Str}
    (h : Caught (N.conf x) (s.node x) a) : (s.node x).g.blacklist.has a = true := by
  have hno := fun f => not_pending_of_idle (hq.idle x hx hu) f
  rcases h with h | ⟨g, h, _⟩ | ⟨o, _, _, _, f, _, h⟩
  · exact h
  · exact absurd h (hno _)
  · exact absurd h (hno _)

/-- What holds of C105: in a fully connected network of gossipers with the same keys, whatever else is posted from outside and in
whatever order messages arrive and goroutines and timers run: if a logger shows tree heads with different signatures for one
period to different gossipers (each gossiper sees one version, `view`, under the same Signer field), then once nothing is under
way every running gossiper has blacklisted the logger and posted a verifying conflict proof against it to its monitor, unless a
running gossiper has posted a verifying full accusation of the logger to its monitor. The gossipers that were shown a version must not have crashed. Missing:
loggers that vary the Signer field, which no signature covers (`C105_violated_signer_field`), and both versions at one gossiper at
the same time (`C36_violated_concurrent_equivocation`). -/
theorem C105_split_views_are_exposed_partial (N : NetConf L) (hM : Mesh N) (s : Net) (k : GossipID) (hk : k.type = .STH_INIT)
    (hs : SplitStart N k s) (es : List NEvent) (hes : ∀ e ∈ es, e.noWipe = true) (signer : Str) (hne : signer ≠ [])
    (view : Str → Option Sig2) (hview : ∀ x o, ShownTo N k es x o → o.signer = signer ∧ view x = some o.sig)
    (hq : Quiet N (nrun N s es)) (hup : ∀ x ∈ N.ids, view x ≠ none → (nrun N s es).up x)
    (x y : Str) (o1 o2 : GossipObj) (h1 : ShownTo N k es x o1) (h2 : ShownTo N k es y o2) (hsig : o1.sig ≠ o2.sig) :
    (∀ z ∈ N.ids, (nrun N s es).up z → ((nrun N s es).node z).g.blacklist.has k.entity = true ∧
      ∃ c : GossipObj, c.type = .CON_INIT ∧ c.payload.p0 = k.entity ∧ c.verify (N.conf z).crypto = .ok ∧
        .owner c ∈ ((nrun N s es).node z).g.out) ∨
    ∃ z ∈ N.ids, (nrun N s es).up z ∧ ∃ o : GossipObj, o.type = .ACC_FULL ∧ o.payload.p0 = k.entity ∧
      o.verify (N.conf z).crypto = .ok ∧ .owner o ∈ ((nrun N s es).node z).g.out := by
  have hxy : x ≠ y := by
    rintro rfl
    have a := (hview x o1 h1).2
    have b := (hview x o2 h2).2
    rw [a] at b
    exact hsig (Option.some.inj b)
  have htwo : ∀ z ∈ N.ids, ∃ w ∈ N.ids, z ≠ w := by
    intro z _
    by_cases e : z = x
    · exact ⟨y, h2.1, by rw [e]; exact hxy⟩
    · exact ⟨x, h1.1, e⟩
  obtain ⟨hB0, hA0⟩ := hs.inv hk signer view
  obtain ⟨hB, hph⟩ := split_run hM hk hne view htwo es s (fun _ _ => False) hB0 (.inl hA0) (fun _ _ h => absurd h id) hes hview hup
  generalize hsf : nrun N s es = s' at *
  have hupx : s'.up x := hup x h1.1 (by rw [(hview x o1 h1).2]; simp)
  have hupy : s'.up y := hup y h2.1 (by rw [(hview y o2 h2).2]; simp)
  have hnp : ∀ z ∈ N.ids, s'.up z → ∀ f, ¬ Pending (s'.node z) f := fun z hz hu f => not_pending_of_idle (hq.idle z hz hu) f
  have hcaught : ∃ w ∈ N.ids, s'.up w ∧ (s'.node w).g.blacklist.has k.entity = true := by
    rcases hph with hA | ⟨w, sg, hS⟩
    · rcases hA.shown x h1.1 hupx o1 (.inr h1) with ⟨f, _, h⟩ | h | h
      · exact absurd h (hnp x h1.1 hupx f)
      · obtain ⟨o, _, f, _, h⟩ := hA.held x h1.1 hupx h
        exact absurd h (hnp x h1.1 hupx f)
      · exact ⟨x, h1.1, hupx, caught_quiet hq h1.1 hupx h⟩
    · have huw : s'.up w := hup w hS.mem (by rw [hS.view]; simp)
      have hpr : Progress N k signer sg s' w → ∃ w ∈ N.ids, s'.up w ∧ (s'.node w).g.blacklist.has k.entity = true := by
        rintro (⟨o, _, m, hm, hd, _, _⟩ | ⟨o, _, f, _, h⟩ | ⟨o, _, h⟩ | h)
        · exact absurd (hd ▸ hS.mem) (hq.flight m hm)
        · exact absurd h (hnp w hS.mem huw f)
        · exact absurd h (hnp w hS.mem huw _)
        · exact ⟨w, hS.mem, huw, caught_quiet hq hS.mem huw h⟩
      have hall : ∀ z o, ShownTo N k es z o → s'.up z → o.sig ≠ sg →
          ∃ w ∈ N.ids, s'.up w ∧ (s'.node w).g.blacklist.has k.entity = true := by
        intro z o hz hu hsg
        rcases hS.shown z hz.1 hu o (.inr hz) hsg with h | ⟨_, _, f, _, h⟩ | ⟨_, _, f, _, h⟩ | ⟨_, _, h, _⟩ | h
        · exact hpr h
        · exact absurd h (hnp z hz.1 hu f)
        · exact absurd h (hnp z hz.1 hu f)
        · exact absurd h (hnp z hz.1 hu _)
        · exact ⟨z, hz.1, hu, caught_quiet hq hz.1 hu h⟩
      by_cases e : o1.sig = sg
      · exact hall y o2 h2 hupy (by rw [← e]; exact Ne.symm hsig)
      · exact hall x o1 h1 hupx e
  obtain ⟨w, hw, huw, hbl⟩ := hcaught
  by_cases hacc : ∃ z ∈ N.ids, s'.up z ∧ ∃ o : GossipObj, o.type = .ACC_FULL ∧ o.payload.p0 = k.entity ∧
      o.verify (N.conf z).crypto = .ok ∧ .owner o ∈ (s'.node z).g.out
  · exact .inr hacc
  · refine .inl fun z hz hu => ?_
    have hb : (s'.node z).g.blacklist.has k.entity = true := by
      rcases C37_blacklists_agree N hM s' hB.reach hq w z hw hz huw hu k.entity hbl with h | h
      · exact h
      · obtain ⟨es, o, e1, e2, e3, e4, e5⟩ := h
        exact absurd ⟨w, hw, huw, o, e2, e3, e4, accFull_owner e1 e2 e5 huw (hq.idle w hw huw)⟩ hacc
    refine ⟨hb, ?_⟩
    rcases owner_of_blacklist N hM s' hB.reach hq z hz hu k.entity hb with h | h
    · exact h
    · obtain ⟨es, o, e1, e2, e3, e4, e5⟩ := h
      exact absurd ⟨z, hz, hu, o, e2, e3, e4, accFull_owner e1 e2 e5 hu (hq.idle z hz hu)⟩ hacc

namespace Ref

/-- L1 shows `a` to G1 and `b` to G2; each forwards what it was shown to the other. -/
def splitHist (a b : GossipObj) : List NEvent :=
  [.node (go!"G1") (clk, .recv 10 a), .node (go!"G2") (clk, .recv 10 b)] ++ nruns (go!"G1") 0 14 ++ nruns (go!"G2") 0 14 ++
  [.deliver 0 clk, .deliver 0 clk] ++ nruns (go!"G1") 1 20 ++ nruns (go!"G2") 1 20 ++
  [.deliver 0 clk, .deliver 0 clk] ++ nruns (go!"G1") 2 20 ++ nruns (go!"G2") 2 20

/-- The second tree head with a Signer field of the logger's choosing. -/
def sthAlias : GossipObj := { sth' with signer := go!"L9" }

theorem splitStart : SplitStart mesh sth.getID Net.init where
  reach := ⟨[], rfl⟩
  fresh := fun _ _ _ => rfl
  noWipe := by intro x _ _ t ht; cases ht
  frames := by rintro x _ _ f o ⟨t, ht, _⟩; cases ht
  flight := by intro m hm; cases hm

theorem shownTo_splitHist {a b o : GossipObj} {x : Str} (h : ShownTo mesh sth.getID (splitHist a b) x o) :
    (x = go!"G1" ∧ o = a) ∨ (x = go!"G2" ∧ o = b) := by
  obtain ⟨_, _, _, clk', n, h⟩ := h
  simp [splitHist, nruns, List.mem_replicate] at h
  rcases h with ⟨h1, _, _, h2⟩ | ⟨h1, _, _, h2⟩
  · exact .inl ⟨h1, h2⟩
  · exact .inr ⟨h1, h2⟩

/-- G1, which was shown the first tree head only, posts a conflict proof against L1 to its monitor. -/
example : ∃ c : GossipObj, c.type = .CON_INIT ∧ c.payload.p0 = go!"L1" ∧
    .owner c ∈ ((nrun mesh Net.init (splitHist sth sth')).node (go!"G1")).g.out := by
  have hup : ∀ x ∈ mesh.ids, (nrun mesh Net.init (splitHist sth sth')).up x := by
    intro x hx
    simp only [mesh, List.mem_cons, List.not_mem_nil, or_false] at hx
    rcases hx with rfl | rfl <;> (show _ = _; decide +kernel)
  have hs1 : ShownTo mesh sth.getID (splitHist sth sth') (go!"G1") sth :=
    ⟨by decide, rfl, by decide +kernel, clk, 10, by simp [splitHist]⟩
  have hs2 : ShownTo mesh sth.getID (splitHist sth sth') (go!"G2") sth' :=
    ⟨by decide, by decide +kernel, by decide +kernel, clk, 10, by simp [splitHist]⟩
  rcases C105_split_views_are_exposed_partial mesh mesh_ok Net.init sth.getID rfl splitStart (splitHist sth sth')
      (by decide +kernel) (go!"L1") (by decide)
      (fun x => if x = go!"G1" then some sth.sig else some sth'.sig)
      (by
        intro x o h
        rcases shownTo_splitHist h with ⟨rfl, rfl⟩ | ⟨rfl, rfl⟩
        · exact ⟨by decide, by simp⟩
        · exact ⟨by decide, by rw [if_neg (by decide)]⟩)
      (quiet_of_check (by decide +kernel)) (fun x hx _ => hup x hx) (go!"G1") (go!"G2") sth sth' hs1 hs2 (by decide +kernel) with h | h
  · obtain ⟨_, c, h1, h2, _, h4⟩ := h (go!"G1") (by decide) (hup _ (by decide))
    exact ⟨c, h1, h2, h4⟩
  · exact ⟨generateCON clk sth sth', by decide +kernel, by decide +kernel, by decide +kernel⟩

/-- After the first tree head has reached both gossipers, L1 shows G2 the second under another Signer field. -/
def aliasHist : List NEvent :=
  floodHist ++ [.node (go!"G2") (clk, .recv 10 sthAlias)] ++ nruns (go!"G2") 1 14 ++ [.deliver 0 clk] ++
  nruns (go!"G1") 2 14 ++ [.deliver 0 clk] ++ nruns (go!"G2") 2 5

end Ref

open Ref in
/-- C105 fails for a logger that chooses the Signer field, which no signature covers: it shows its two tree heads for one period
to two gossipers, both verify, each gossiper receives both, and once nothing is under way nobody is blacklisted and no conflict
proof exists. -/
theorem C105_violated_signer_field :
    let s := nrun mesh Net.init (aliasHist)
    Quiet mesh s ∧ (∀ z ∈ mesh.ids, s.up z) ∧
    ShownTo mesh sth.getID (aliasHist) (go!"G1") sth ∧
    ShownTo mesh sth.getID (aliasHist) (go!"G2") sthAlias ∧ sth.sig ≠ sthAlias.sig ∧
    .owner sth ∈ (s.node (go!"G1")).g.out ∧ .owner sthAlias ∈ (s.node (go!"G1")).g.out ∧
    .owner sth ∈ (s.node (go!"G2")).g.out ∧ .owner sthAlias ∈ (s.node (go!"G2")).g.out ∧
    ∀ z ∈ mesh.ids, (s.node z).g.blacklist = .empty ∧ (s.node z).g.storage.conInit = .empty := by
  refine ⟨quiet_of_check (by decide +kernel), ?_, ⟨by decide, rfl, by decide +kernel, clk, 10, by simp [aliasHist, floodHist]⟩,
    ⟨by decide, by decide +kernel, by decide +kernel, clk, 10, by simp [aliasHist, floodHist]⟩, by decide +kernel, by decide +kernel,
    by decide +kernel, by decide +kernel, by decide +kernel, by decide +kernel⟩
  intro x hx
  simp only [mesh, List.mem_cons, List.not_mem_nil, or_false] at hx
  rcases hx with rfl | rfl <;> (show _ = _; decide +kernel)

end CTng
