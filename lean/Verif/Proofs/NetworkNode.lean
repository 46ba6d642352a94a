import Verif.Proofs.NetworkStep
/- What an object on its way through one gossiper turns into. -/
set_option autoImplicit false

namespace CTng
variable {L : Lib} (cf : GConf L)

/-- The gossiper holds an object of the key's own type under the key. -/
def HeldKey (c : CState) (k : GossipID) : Prop := (c.g.storage.objs k.type).has k = true

/-- The gossiper is done with the key: the entity is blacklisted, or about to be, or a statement is held. -/
def Settled (c : CState) (k : GossipID) : Prop :=
  c.g.blacklist.has k.entity = true ∨ (∃ g, Pending c (.storeBl g) ∧ g.type = .CON_INIT ∧ g.payload.p0 = k.entity) ∨
  (k.type ≠ .CON_INIT ∧ HeldKey c k)

/-- Keys of objects that are passed on. -/
def FloodType (t : GType) : Prop := t = .CON_INIT ∨ t = .STH_INIT ∨ t = .REV_INIT

/-- An object that any gossiper with these keys accepts under the key. -/
structure Carrier (k : GossipID) (o : GossipObj) : Prop where
  id : o.getID = k
  ok : o.verify cf.crypto = .ok
  signer : k.type = .CON_INIT ∨ o.signer ≠ []

/-- Program points that lead to the object being stored. -/
def Learns (o : GossipObj) (f : Frame) : Prop :=
  (∃ n, f = .recv n o) ∨ f = .recon o ∨ f = .handle o ∨ f = .blk o ∨ f = .initFull o ∨ f = .initFrag o ∨ f = .initMal o ∨
  f = .conCount o ∨ f = .store o

/-- Program points that lead to the object being passed on. -/
def Sends (o : GossipObj) (f : Frame) : Prop := f = .storeBl o ∨ f = .storeNote o ∨ f = .sendPeers o

/-- What every reachable gossiper satisfies, as far as needed here. -/
structure Sound (c : CState) : Prop where
  storage : StorageInv cf c.g.storage
  wt : ∀ f, HasFrame c f → f.wt

/-- The program point does not wipe what is held under the key. -/
def KeepsKey (c : CState) (k : GossipID) : Prop := k.type = .CON_INIT ∨ ¬ HasFrame c .wipe

/-- Bookkeeping for one key. -/
structure NodeInv (c : CState) (k : GossipID) : Prop where
  settled : k.type = .CON_INIT → HeldKey c k → Settled c k
  signed : k.type ≠ .CON_INIT → ∀ g, HasFrame c (.store g) → g.getID = k → g.verify cf.crypto = .ok → g.signer = [] → HeldKey c k
  noWipe : KeepsKey c k

variable {cf}

theorem FloodType.isObj {t : GType} (h : FloodType t) : t.isObj = true := by rcases h with h | h | h <;> subst h <;> rfl

theorem heldKey_get {c : CState} {k : GossipID} : HeldKey c k ↔ ∃ o, (c.g.storage.objs k.type).get k = some o := by
  unfold HeldKey; rw [GoMap.has_iff]

theorem held_sstep {s : GState} {f : Frame} {st : Storage} {k : GossipID} (h : SStep cf s f st)
    (hw : f ≠ .wipe ∨ k.type = .CON_INIT) (hh : (s.storage.objs k.type).has k = true) : (st.objs k.type).has k = true := by
  cases h with
  | same => exact hh
  | payload n g _ _ _ => revert hh; cases k.type <;> exact id
  | put g _ hobj _ =>
    by_cases e : k.type = g.type
    · rw [e, Storage.objs_putObj_same _ _ _ _ hobj, GoMap.has_set, ← e, hh]; simp
    · rw [Storage.objs_putObj_ne _ _ _ e]; exact hh
  | frag g _ _ => simpa using hh
  | wipe =>
    rcases hw with hw | hw
    · exact absurd rfl hw
    · rw [hw] at hh ⊢; exact hh

theorem newly_held {s : GState} {f : Frame} {st : Storage} {k : GossipID} (h : SStep cf s f st)
    (h0 : ¬ (s.storage.objs k.type).has k = true) (h1 : (st.objs k.type).has k = true) :
    ∃ g, f = .store g ∧ g.getID = k ∧ g.verify cf.crypto = .ok ∧ (g.type.isFull = false → dupCheck s g = false) := by
  cases h with
  | same => exact absurd h1 h0
  | payload n g _ _ _ => exact absurd (by revert h1; cases k.type <;> exact id) h0
  | put g hv hobj hd =>
    by_cases e : k.type = g.type
    · rw [e, Storage.objs_putObj_same _ _ _ _ hobj, GoMap.has_set, ← e, Bool.or_eq_true] at h1
      rcases h1 with h1 | h1
      · exact ⟨g, rfl, (by simpa using h1 : _ = _).symm, hv, hd⟩
      · exact absurd h1 h0
    · rw [Storage.objs_putObj_ne _ _ _ e] at h1; exact absurd h1 h0
  | frag g _ _ => simp at h1; exact absurd h1 h0
  | wipe => exact absurd (by revert h1; cases k.type <;> (simp [Storage.objs, Storage.init] <;> try exact id)) h0

theorem addBlacklist_self (s : GState) (x : Str) : (addBlacklist s x).blacklist.has x = true := by
  unfold addBlacklist
  split
  · rename_i h; exact h
  · simp

theorem blacklist_step (clk : Clock) (s : GState) (f : Frame) (x : Str) (h : s.blacklist.has x = true) :
    (stepFrame cf clk s f).1.blacklist.has x = true := by
  rcases stepFrame_blacklist cf clk s f with h1 | ⟨g, _, _, h1⟩
  · rw [h1]; exact h
  · rw [h1]
    unfold addBlacklist
    split
    · exact h
    · simp only [GoMap.has_set, h, Bool.or_true]

section
variable {c c' : CState} {k : GossipID}

theorem HeldKey.act (hs : Sound cf c) (hw : KeepsKey c k) (ha : Act cf c c') (h : HeldKey c k) : HeldKey c' k := by
  cases ha with
  | idle h1 _ _ _ _ => unfold HeldKey; rw [h1]; exact h
  | exec clk f hp hg _ _ _ =>
    have hS := stepFrame_storage cf clk c.g f (hs.wt f hp.has)
    unfold HeldKey; rw [hg]
    refine held_sstep hS ?_ h
    rcases hw with hw | hw
    · exact .inr hw
    · exact .inl (by rintro rfl; exact hw hp.has)

theorem Settled.act (hs : Sound cf c) (hw : KeepsKey c k) (ha : Act cf c c') (h : Settled c k) : Settled c' k := by
  rcases h with h | ⟨g, hp, ht, he⟩ | ⟨ht, h⟩
  · left
    cases ha with
    | idle _ h2 _ _ _ => rw [h2]; exact h
    | exec clk f _ hg _ _ _ => rw [hg]; exact blacklist_step clk c.g f _ h
  · cases ha with
    | idle _ _ _ keep _ => exact .inr (.inl ⟨g, keep _ hp, ht, he⟩)
    | exec clk f _ hg keep _ _ =>
      by_cases e : f = .storeBl g
      · subst e
        left
        rw [hg, ← he]
        have : (stepFrame cf clk c.g (.storeBl g)).1 = addBlacklist c.g g.payload.p0 := by
          simp only [stepFrame, storeBlacklist, ht]
        rw [this]
        exact addBlacklist_self _ _
      · exact .inr (.inl ⟨g, keep _ (Ne.symm e) hp, ht, he⟩)
  · exact .inr (.inr ⟨ht, h.act hs hw ha⟩)

/-- The counts the INIT handlers look at are taken under a key of INIT type, where nothing is filed. -/
theorem full_count_zero (hs : Sound cf c) {o : GossipObj} (ht : o.type = .STH_INIT ∨ o.type = .REV_INIT) :
    itemCount c.g o.getID (fullOfInit o.type) = 0 := by
  have key : ∀ t, t ≠ o.type → (c.g.storage.objs t).has o.getID = false := by
    intro t hne
    cases hh : (c.g.storage.objs t).has o.getID with
    | false => rfl
    | true =>
      obtain ⟨v, hv⟩ := (GoMap.has_iff _ _).1 hh
      obtain ⟨h1, h2, _⟩ := hs.storage.objs _ _ _ hv
      have : v.type = o.type := congrArg GossipID.type h1
      exact absurd (h2.symm.trans this) hne
  rcases ht with ht | ht <;> rw [ht] at key ⊢ <;> simp only [fullOfInit, itemCount] <;> rw [key _ (by simp)] <;> rfl

theorem frag_count_zero (hs : Sound cf c) {o : GossipObj} (ht : o.type = .STH_INIT ∨ o.type = .REV_INIT) :
    itemCount c.g o.getID (fragOfInit o.type) = 0 := by
  have key : ∀ t, t ≠ o.type → c.g.storage.fragList t o.getID = [] := by
    intro t hne
    refine List.eq_nil_iff_forall_not_mem.2 fun v hv => ?_
    obtain ⟨h1, h2⟩ := hs.storage.frags _ _ _ hv
    have : v.type = o.type := congrArg GossipID.type h1
    exact hne (h2.symm.trans this)
  rcases ht with ht | ht <;> rw [ht] at key ⊢ <;> simp only [fragOfInit, itemCount] <;> rw [key _ (by simp)] <;> rfl

theorem dupCheck_held {s : GState} {o : GossipObj} (ht : o.type.isObj = true) (h : dupCheck s o = true) :
    (s.storage.objs o.type).has o.getID = true := by
  unfold dupCheck at h
  rw [GoMap.has_iff]
  cases hg : (s.storage.objs o.type).get o.getID with
  | some v => exact ⟨v, rfl⟩
  | none => cases hty : o.type <;> rw [hty] at ht <;> simp [GType.isObj] at ht <;> rw [hty] at hg <;> simp [hty, hg] at h

theorem malicious_held {s : GState} {o : GossipObj} (hn : o.signer ≠ []) (h : isMalicious s o = true) :
    (s.storage.objs o.type).has o.getID = true := by
  rw [GoMap.has_iff]
  cases hg : (s.storage.objs o.type).get o.getID with
  | some v => exact ⟨v, rfl⟩
  | none =>
    unfold isMalicious at h
    cases hty : o.type <;> rw [hty] at h hg <;> simp at h <;>
      (simp [getObject, hg, GossipObj.zero] at h; exact absurd h.1 hn)

theorem not_malicious_held {s : GState} {o : GossipObj} (ht : o.type = .STH_INIT ∨ o.type = .REV_INIT) (hn : o.signer = [])
    (hsig : o.sig.s0 ≠ []) (h : isMalicious s o = false) : (s.storage.objs o.type).has o.getID = true := by
  rw [GoMap.has_iff]
  cases hg : (s.storage.objs o.type).get o.getID with
  | some v => exact ⟨v, rfl⟩
  | none =>
    exfalso
    unfold isMalicious at h
    rcases ht with ht | ht <;> rw [ht] at h hg <;> simp [getObject, hg, GossipObj.zero, hn] at h <;>
      (rw [h] at hsig; exact hsig rfl)

/-- One step of an acceptable object on its way into the store: it is still on its way, or the gossiper is done with it. -/
theorem learn_exec (hs : Sound cf c) (hi : NodeInv cf c k) (hth : 0 < cf.crypto.threshold) {o : GossipObj} (hk : FloodType k.type)
    (ho : Carrier cf k o) (clk : Clock) (f : Frame) (hf : Learns o f) (hp : Pending c f) (ha : Act cf c c')
    (hnext : ∀ new f', (stepFrame cf clk c.g f).2 = some new → new.head? = some f' → Pending c' f')
    (hg : c'.g = (stepFrame cf clk c.g f).1) :
    Settled c' k ∨ ∃ f', Learns o f' ∧ Pending c' f' := by
  have htype : o.type = k.type := congrArg GossipID.type ho.id
  have hent : o.payload.p0 = k.entity := congrArg GossipID.entity ho.id
  have hobj : o.type.isObj = true := by rw [htype]; exact hk.isObj
  have hset : (c.g.storage.objs o.type).has o.getID = true → Settled c' k := by
    intro h
    rw [htype, ho.id] at h
    by_cases hc : k.type = .CON_INIT
    · exact (hi.settled hc h).act hs hi.noWipe ha
    · exact Settled.act hs hi.noWipe ha (.inr (.inr ⟨hc, h⟩))
  have hbl : inBlacklist c.g o.payload.p0 = true → Settled c' k := by
    intro h
    rw [hent] at h
    exact Settled.act hs hi.noWipe ha (.inl h)
  have go : ∀ f', Learns o f' → (stepFrame cf clk c.g f).2 = some [f'] → Settled c' k ∨ ∃ f', Learns o f' ∧ Pending c' f' :=
    fun f' h1 h2 => .inr ⟨f', h1, hnext _ f' h2 rfl⟩
  have hinit : k.type ≠ .CON_INIT → (o.type = .STH_INIT ∨ o.type = .REV_INIT) ∧ o.signer ≠ [] := by
    intro hc
    rw [htype]
    exact ⟨hk.resolve_left hc, ho.signer.resolve_left hc⟩
  rcases hf with ⟨n, rfl⟩ | rfl | rfl | rfl | rfl | rfl | rfl | rfl | rfl
  · refine go (.recon o) (.inr (.inl rfl)) ?_
    simp only [stepFrame]
    by_cases hcnd : n > cf.optThreshold ∧ o.type = .REV_INIT
    · rw [if_pos hcnd]; simp only [savePayload, ho.ok]
    · rw [if_neg hcnd]
  · refine go (.handle o) (.inr (.inr (.inl rfl))) ?_
    simp only [stepFrame]
    have : o.type ≠ .REV_FRAG := by
      intro h; rw [h] at hobj; cases hobj
    rw [if_neg (fun h => this h.2)]
  · cases hd : dupCheck c.g o with
    | true => exact .inl (hset (dupCheck_held hobj hd))
    | false => exact go (.blk o) (.inr (.inr (.inr (.inl rfl)))) (by simp [stepFrame, hd])
  · cases hb : inBlacklist c.g o.payload.p0 with
    | true => exact .inl (hbl hb)
    | false =>
      rcases hk with hk' | hk' | hk'
      · exact go (.conCount o) (by simp [Learns]) (by simp [stepFrame, hb, htype, hk'])
      · exact go (.initFull o) (by simp [Learns]) (by simp [stepFrame, hb, htype, hk'])
      · exact go (.initFull o) (by simp [Learns]) (by simp [stepFrame, hb, htype, hk'])
  · have hty : o.type = .STH_INIT ∨ o.type = .REV_INIT := by
      by_cases hc : k.type = .CON_INIT
      · have := hs.wt _ hp.has; rw [Frame.wt, htype, hc] at this; cases this
      · exact (hinit hc).1
    exact go (.initFrag o) (by simp [Learns]) (by simp [stepFrame, full_count_zero hs hty])
  · have hty : o.type = .STH_INIT ∨ o.type = .REV_INIT := by
      by_cases hc : k.type = .CON_INIT
      · have := hs.wt _ hp.has; rw [Frame.wt, htype, hc] at this; cases this
      · exact (hinit hc).1
    refine go (.initMal o) (by simp [Learns]) ?_
    have h0 := frag_count_zero hs hty
    simp only [stepFrame, h0]
    rw [if_neg (by simp; omega)]
    rcases hty with h | h <;> simp [h]
  · have hc : k.type ≠ .CON_INIT := by
      intro hc
      have := hs.wt _ hp.has
      rw [Frame.wt, htype, hc] at this
      rcases this with h | h <;> cases h
    cases hm : isMalicious c.g o with
    | true => exact .inl (hset (malicious_held (hinit hc).2 hm))
    | false => exact go (.store o) (by simp [Learns]) (by simp [stepFrame, hm])
  · have hty : o.type = .CON_INIT := hs.wt _ hp.has
    by_cases h0 : itemCount c.g o.getID o.type = 0
    · exact go (.store o) (by simp [Learns]) (by simp [stepFrame, h0])
    · left
      apply hset
      cases hh : (c.g.storage.objs o.type).has o.getID with
      | true => rfl
      | false => rw [hty] at hh h0; simp [itemCount, hh] at h0
  · left
    rcases hl : storeLocked { c.g with timerlist := c.g.timerlist ++ [clk.second] } o with ⟨s1, b⟩
    rcases storage_storeLocked hobj hl with ⟨rfl, h1, hd⟩ | ⟨rfl, h1, _⟩
    · exact hset (dupCheck_held hobj ((dupCheck_congr rfl o).trans hd))
    · have hst : stepFrame cf clk c.g (.store o) = (s1, some [.storeBl o]) := by simp only [stepFrame, ho.ok, hl]
      by_cases hc : k.type = .CON_INIT
      · exact .inr (.inl ⟨o, hnext [.storeBl o] _ (by rw [hst]) rfl, htype.trans hc, hent⟩)
      · refine .inr (.inr ⟨hc, ?_⟩)
        unfold HeldKey
        rw [hg, hst, h1, ← htype]
        simp only
        rw [Storage.objs_putObj_same _ _ _ _ hobj, ho.id]
        simp

theorem learn_act (hs : Sound cf c) (hi : NodeInv cf c k) (hth : 0 < cf.crypto.threshold) {o : GossipObj} (hk : FloodType k.type)
    (ho : Carrier cf k o) (ha : Act cf c c') (h : ∃ f, Learns o f ∧ Pending c f) :
    Settled c' k ∨ ∃ f', Learns o f' ∧ Pending c' f' := by
  obtain ⟨f, hf, hp⟩ := h
  cases ha with
  | idle h1 h2 h3 keep rev => exact .inr ⟨f, hf, keep f hp⟩
  | exec clk f0 hp0 hg keep next rev =>
    by_cases e : f = f0
    · subst e
      exact learn_exec hs hi hth hk ho clk f hf hp (.exec clk f hp0 hg keep next rev) next hg
    · exact .inr ⟨f, hf, keep f e hp⟩

/-- The object is posted to every connected gossiper. -/
def Posted (c c' : CState) (o : GossipObj) : Prop :=
  ∀ u ∈ cf.connected, ⟨u, endpointOf o.type, .obj o⟩ ∈ postsOf (c'.g.out.drop c.g.out.length)

theorem send_act {o : GossipObj} (hk : FloodType o.type) (hsmall : o.type = .REV_INIT → (cf.jsonLen o : Int) ≤ cf.optThreshold)
    (ha : Act cf c c') (h : ∃ f, Sends o f ∧ Pending c f) :
    (∃ f', Sends o f' ∧ Pending c' f') ∨ Posted (cf := cf) c c' o := by
  obtain ⟨f, hf, hp⟩ := h
  cases ha with
  | idle h1 h2 h3 keep rev => exact .inl ⟨f, hf, keep f hp⟩
  | exec clk f0 hp0 hg keep next rev =>
    by_cases e : f = f0
    · subst e
      rcases hf with rfl | rfl | rfl
      · exact .inl ⟨_, .inr (.inl rfl), next [.storeNote o] _ rfl rfl⟩
      · refine .inl ⟨.sendPeers o, .inr (.inr rfl), next (afterStore o true) _ rfl ?_⟩
        rcases hk with hk | hk | hk <;> simp [afterStore, hk]
      · right
        intro u hu
        have hout : c'.g.out = c.g.out ++ cf.connected.map fun u => .peer u (endpointOf o.type) (.obj o) := by
          rw [hg]
          simp only [stepFrame, sendToGossipers]
          rw [if_neg (fun h => by have := hsmall h.2; omega)]
          have : o.type ≠ .REV_FRAG := by intro h; rw [h] at hk; rcases hk with h | h | h <;> cases h
          rw [if_neg (fun h => this h.2)]
        rw [hout, List.drop_left]
        unfold postsOf
        rw [List.mem_filterMap]
        exact ⟨_, List.mem_map.2 ⟨u, hu, rfl⟩, rfl⟩
    · exact .inl ⟨f, hf, keep f e hp⟩

/-- Whoever comes to hold an object of this key is about to pass on an acceptable one. -/
theorem new_act (hs : Sound cf c) (hi : NodeInv cf c k) (hk : FloodType k.type) (ha : Act cf c c') (h0 : ¬ HeldKey c k)
    (h1 : HeldKey c' k) : ∃ o, Carrier cf k o ∧ Pending c' (.storeBl o) := by
  cases ha with
  | idle hst h2 h3 keep rev => unfold HeldKey at h1; rw [hst] at h1; exact absurd h1 h0
  | exec clk f hp hg keep next rev =>
    have hS := stepFrame_storage cf clk c.g f (hs.wt f hp.has)
    unfold HeldKey at h1
    rw [hg] at h1
    obtain ⟨g, rfl, hid, hv, hd⟩ := newly_held hS h0 h1
    have hobj : g.type.isObj = true := hs.wt _ hp.has
    have htype : g.type = k.type := congrArg GossipID.type hid
    refine ⟨g, ⟨hid, hv, ?_⟩, ?_⟩
    · by_cases hc : k.type = .CON_INIT
      · exact .inl hc
      · refine .inr fun hn => h0 (hi.signed hc g hp.has hid hv hn)
    · rcases hl : storeLocked { c.g with timerlist := c.g.timerlist ++ [clk.second] } g with ⟨s1, b⟩
      rcases storage_storeLocked hobj hl with ⟨rfl, _, hd'⟩ | ⟨rfl, _, _⟩
      · have : dupCheck c.g g = true := (dupCheck_congr rfl g).trans hd'
        rw [hd (by rw [htype]; rcases hk with h | h | h <;> rw [h] <;> rfl)] at this
        cases this
      · exact next [.storeBl g] _ (by simp only [stepFrame, hv, hl]) rfl

theorem store_new (clk : Clock) (s : GState) (f : Frame) (g : GossipObj) (new : List Frame)
    (h : (stepFrame cf clk s f).2 = some new) (hm : .store g ∈ new) (ht : g.type = .STH_INIT ∨ g.type = .REV_INIT) (hwt : f.wt) :
    f = .initMal g ∧ isMalicious s g = false := by
  have aft : ∀ g' b, Frame.store g ∉ afterStore g' b := by
    intro g' b hmem
    unfold afterStore at hmem
    split at hmem <;> (try split at hmem) <;> simp at hmem
  cases f with
  | recv n o =>
    simp only [stepFrame] at h
    split at h <;> simp at h
    subst h; simp at hm
  | blk o =>
    simp only [stepFrame, Option.some.injEq] at h; subst h
    split at hm
    · cases hm
    · split at hm <;> simp at hm
  | initFrag o =>
    simp only [stepFrame, Option.some.injEq] at h; subst h
    split at hm
    · cases hm
    · split at hm
      · rename_i hty; simp at hm; subst hm; rw [hty] at ht; rcases ht with h | h <;> cases h
      · simp at hm
  | initMal o =>
    simp only [stepFrame, Option.some.injEq] at h; subst h
    split at hm
    · simp at hm
    · rename_i hmal; simp at hm; subst hm; exact ⟨rfl, by simpa using hmal⟩
  | store o =>
    simp only [stepFrame] at h
    split at h
    · cases h
    · simp at h; subst h; exact absurd hm (aft _ _)
    · split at h
      · simp at h; subst h; exact absurd hm (aft _ _)
      · simp at h; subst h; simp at hm
  | storeNote o => simp only [stepFrame, Option.some.injEq] at h; subst h; exact absurd hm (aft _ _)
  | sign o =>
    simp only [stepFrame] at h
    split at h
    · cases h
    · simp at h; subst h; simp at hm
  | conCount o =>
    simp only [stepFrame, Option.some.injEq] at h; subst h
    split at hm
    · simp at hm; subst hm
      have : g.type = .CON_INIT := hwt
      rw [this] at ht; rcases ht with h | h <;> cases h
    · cases hm
  | fragGen o =>
    simp only [stepFrame] at h
    split at h
    · cases h
    · simp at h; subst h; simp at hm
  | fullCount o =>
    simp only [stepFrame, Option.some.injEq] at h; subst h
    split at hm
    · simp at hm; subst hm
      have : g.type.isFull = true := hwt
      rcases ht with h | h <;> rw [h] at this <;> cases this
    · simp at hm
  | fragStore o =>
    simp only [stepFrame, Option.some.injEq] at h; subst h
    rcases List.mem_append.1 hm with h1 | h1 <;> split at h1 <;> simp at h1
  | _ => simp only [stepFrame, Option.some.injEq] at h; subst h; (try split at hm) <;> simp at hm

theorem verify_sig {g : GossipObj} (ht : g.type = .STH_INIT ∨ g.type = .REV_INIT) (hv : g.verify cf.crypto = .ok) : g.sig.s0 ≠ [] := by
  intro h
  rcases ht with ht | ht <;> simp [GossipObj.verify, ht, verifyRSAPayload, h] at hv

theorem wipe_new (clk : Clock) (s : GState) (f : Frame) (new : List Frame) (h : (stepFrame cf clk s f).2 = some new) :
    Frame.wipe ∉ new := by
  have aft : ∀ g' b, Frame.wipe ∉ afterStore g' b := by
    intro g' b hmem
    unfold afterStore at hmem
    split at hmem <;> (try split at hmem) <;> simp at hmem
  intro hm
  cases f with
  | recv n o =>
    simp only [stepFrame] at h
    split at h <;> simp at h
    subst h; simp at hm
  | blk o =>
    simp only [stepFrame, Option.some.injEq] at h; subst h
    split at hm
    · cases hm
    · split at hm <;> simp at hm
  | initFrag o =>
    simp only [stepFrame, Option.some.injEq] at h; subst h
    split at hm
    · cases hm
    · split at hm <;> simp at hm
  | store o =>
    simp only [stepFrame] at h
    split at h
    · cases h
    · simp at h; subst h; exact absurd hm (aft _ _)
    · split at h
      · simp at h; subst h; exact absurd hm (aft _ _)
      · simp at h; subst h; simp at hm
  | storeNote o => simp only [stepFrame, Option.some.injEq] at h; subst h; exact absurd hm (aft _ _)
  | sign o =>
    simp only [stepFrame] at h
    split at h
    · cases h
    · simp at h; subst h; simp at hm
  | fragGen o =>
    simp only [stepFrame] at h
    split at h
    · cases h
    · simp at h; subst h; simp at hm
  | fragStore o =>
    simp only [stepFrame, Option.some.injEq] at h; subst h
    rcases List.mem_append.1 hm with h1 | h1 <;> split at h1 <;> simp at h1
  | _ => simp only [stepFrame, Option.some.injEq] at h; subst h; (try split at hm) <;> simp at hm

theorem NodeInv.act (hs : Sound cf c) (hi : NodeInv cf c k) (hk : FloodType k.type) (ha : Act cf c c') (hw' : KeepsKey c' k) :
    NodeInv cf c' k where
  noWipe := hw'
  settled := by
    intro hc h1
    by_cases h0 : HeldKey c k
    · exact (hi.settled hc h0).act hs hi.noWipe ha
    · obtain ⟨o, ho, hp⟩ := new_act hs hi hk ha h0 h1
      exact .inr (.inl ⟨o, hp, (congrArg GossipID.type ho.id : o.type = k.type).trans hc, congrArg GossipID.entity ho.id⟩)
  signed := by
    intro hc g hf hid hv hn
    have hty : g.type = .STH_INIT ∨ g.type = .REV_INIT := by
      have e : g.type = k.type := congrArg GossipID.type hid
      rw [e]; exact hk.resolve_left hc
    have hold : HasFrame c (.store g) → HeldKey c' k := fun h => (hi.signed hc g h hid hv hn).act hs hi.noWipe ha
    cases ha with
    | idle h1 h2 h3 keep rev =>
      rcases rev _ hf with h | h
      · exact hold h
      · cases h
    | exec clk f hp hg keep next rev =>
      rcases rev _ hf with h | ⟨new, hnew, hm⟩
      · exact hold h
      · obtain ⟨rfl, hmal⟩ := store_new clk c.g f g new hnew hm hty (hs.wt f hp.has)
        have := not_malicious_held hty hn (verify_sig hty hv) hmal
        refine HeldKey.act hs hi.noWipe (.exec clk _ hp hg keep next rev) ?_
        unfold HeldKey
        rw [← hid]; exact this

end

end CTng
