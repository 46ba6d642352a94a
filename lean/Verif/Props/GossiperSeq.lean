import Verif.Proofs.GossiperSeq
import Verif.Props.GossiperConc
/-
C17, C18, C19 (the attack), C21, C23, C24, C25, C26 (second half), C28, C29, C36: the gossiper handling one event at a
time.
-/
set_option autoImplicit false

namespace CTng
variable {L : Lib}

/-! ### Specification -/

/-- What one connected gossiper is sent about a statement: the statement itself, or for a large revocation the
notification carrying its hash. -/
def Announce (cf : GConf L) (g : GossipObj) (u : Str) : Out :=
  if g.type = .REV_INIT ∧ (cf.jsonLen g : Int) > cf.optThreshold then
    .peer u (go!"/gossip/new_payload_notification")
      (.notif { sender := cf.crypto.selfID, period := g.period, type := .REV_INIT, entity := g.payload.p0,
                objhash := L.sha256 (g.sig.s0 ++ g.signer ++ g.period ++ GType.REV_INIT.toStr ++
                  g.payload.p0 ++ g.payload.p1 ++ g.payload.p2) })
  else .peer u (endpointOf g.type) (.obj g)

/-- Sending a statement to everybody: each connected gossiper once, the owner monitor once. -/
def Broadcast (cf : GConf L) (g : GossipObj) : List Out := cf.connected.map (Announce cf g) ++ [.owner g]

/-- The gossip object an output carries. -/
def Out.carries (g : GossipObj) : Out → Prop
  | .peer _ _ (.obj o) => o = g
  | .owner o => o = g
  | _ => False

/-! ### Lemmas -/

theorem broadcast_out (cf : GConf L) (s : GState) (g : GossipObj) (ht : g.type ≠ .REV_FRAG) :
    (sendToMonitor (sendToGossipers cf s g) g).out = s.out ++ Broadcast cf g := by
  have : (sendToGossipers cf s g).out = s.out ++ cf.connected.map (Announce cf g) := by
    unfold sendToGossipers
    simp only
    split
    · rename_i h
      simp only
      congr 2
      funext u
      simp [Announce, h.1, h.2, notificationOf, computeObjHash]
    · rename_i h
      have h' : ¬ ((cf.jsonLen g : Int) > cf.optThreshold ∧ g.type = .REV_FRAG) := fun x => ht x.2
      rw [if_neg h']
      simp only
      congr 2
      funext u
      rw [Announce, if_neg (fun x => h ⟨x.2, x.1⟩)]
  simp [this, Broadcast]

theorem itemCount_mismatch (cf : GConf L) {s : GState} (H : StorageInv cf s.storage) {k : GossipID} {t : GType}
    (h : k.type ≠ t) : itemCount s k t = 0 := by
  have hobj : ∀ t, k.type ≠ t → (s.storage.objs t).has k = false := by
    intro t h
    cases hh : (s.storage.objs t).has k with
    | false => rfl
    | true =>
      obtain ⟨o, ho⟩ := (GoMap.has_iff _ _).1 hh
      obtain ⟨a, b, _⟩ := H.objs t k o ho
      subst a
      exact absurd b h
  have hfr : ∀ t, k.type ≠ t → s.storage.fragList t k = [] := by
    intro t h
    cases hh : s.storage.fragList t k with
    | nil => rfl
    | cons o l =>
      obtain ⟨a, b⟩ := H.frags t k o (by rw [hh]; simp)
      subst a
      exact absurd b h
  unfold itemCount
  cases t <;> simp_all

theorem dupCheck_false_of_none {s : GState} {g : GossipObj} (ht : g.type.isObj = true)
    (h : (s.storage.objs g.type).get g.getID = none) : dupCheck s g = false := by
  unfold dupCheck
  cases hg : g.type <;> simp_all [GType.isObj]

theorem dupCheck_obj {s : GState} {g : GossipObj} (ht : g.type.isObj = true) :
    dupCheck s g = true ↔ ∃ o, (s.storage.objs g.type).get g.getID = some o ∧ o.sig = g.sig := by
  unfold dupCheck
  cases hg : g.type <;> rw [hg] at ht <;> simp [GType.isObj] at ht <;> simp only <;> split <;> simp_all

/-- The state in which `Handle_Gossip_object` starts after a message was received. -/
theorem recv_eq (cf : GConf L) (clk : Clock) (n : Int) (s : GState) (g : GossipObj)
    (h : ¬ (cf.optMode = true ∧ g.type = .REV_FRAG)) :
    gossipObjectHandler cf clk n s g =
      if n > cf.optThreshold ∧ g.type = .REV_INIT then
        (match g.verify cf.crypto with
          | .panic => ({ s with trafficReceived := s.trafficReceived + n }, true)
          | .err _ => handle cf clk { s with trafficReceived := s.trafficReceived + n } g
          | .ok => handle cf clk { s with trafficReceived := s.trafficReceived + n,
                                          storage := { s.storage with revPayload := s.storage.revPayload.set g.getID g } } g)
      else handle cf clk { s with trafficReceived := s.trafficReceived + n } g := by
  unfold gossipObjectHandler
  simp only [h, if_false]
  by_cases hc : n > cf.optThreshold ∧ g.type = .REV_INIT
  · simp only [hc, and_self, if_true, savePayload]
    cases g.verify cf.crypto <;> rfl
  · simp only [if_neg hc]

/-- The state handed to `Handle_Gossip_object` for an object that verifies. -/
def recvState (cf : GConf L) (n : Int) (s : GState) (g : GossipObj) : GState :=
  if n > cf.optThreshold ∧ g.type = .REV_INIT then
    { s with trafficReceived := s.trafficReceived + n,
             storage := { s.storage with revPayload := s.storage.revPayload.set g.getID g } }
  else { s with trafficReceived := s.trafficReceived + n }

theorem recv_verified (cf : GConf L) (clk : Clock) (n : Int) (s : GState) (g : GossipObj)
    (h : ¬ (cf.optMode = true ∧ g.type = .REV_FRAG)) (hv : g.verify cf.crypto = .ok) :
    gossipObjectHandler cf clk n s g = handle cf clk (recvState cf n s g) g := by
  rw [recv_eq cf clk n s g h, recvState, hv]
  split <;> rfl

section
variable (cf : GConf L) (n : Int) (s : GState) (g : GossipObj)
@[simp] theorem recvState_objs (t : GType) : (recvState cf n s g).storage.objs t = s.storage.objs t := by
  unfold recvState; split <;> cases t <;> rfl
@[simp] theorem recvState_frags (t : GType) : (recvState cf n s g).storage.frags t = s.storage.frags t := by
  unfold recvState; split <;> cases t <;> rfl
@[simp] theorem recvState_fragList (t : GType) (k : GossipID) :
    (recvState cf n s g).storage.fragList t k = s.storage.fragList t k := by simp [Storage.fragList]
@[simp] theorem recvState_blacklist : (recvState cf n s g).blacklist = s.blacklist := by
  unfold recvState; split <;> rfl
@[simp] theorem recvState_out : (recvState cf n s g).out = s.out := by unfold recvState; split <;> rfl
@[simp] theorem recvState_timers : (recvState cf n s g).timers = s.timers := by unfold recvState; split <;> rfl
theorem recvState_inv (H : StorageInv cf s.storage) (hv : g.verify cf.crypto = .ok) :
    StorageInv cf (recvState cf n s g).storage := by
  unfold recvState
  split
  · rename_i hc; exact H.step cf (.payload n g hv hc.2 hc.1)
  · exact H
end

/-- A conflict proof that is new, verifies and names somebody not blacklisted is stored and sent to everybody. -/
theorem handle_con_new (cf : GConf L) (clk : Clock) (s : GState) (c : GossipObj) (ht : c.type = .CON_INIT)
    (hv : c.verify cf.crypto = .ok) (hnone : (s.storage.objs .CON_INIT).get c.getID = none)
    (hb : s.blacklist.has c.payload.p0 = false) :
    handle cf clk s c = (sendToMonitor (sendToGossipers cf (storedState cf clk s c) c) c, false) := by
  have hobj : c.type.isObj = true := by simp [ht, GType.isObj]
  have hd : dupCheck s c = false := dupCheck_false_of_none hobj (by rw [ht]; exact hnone)
  have hc : itemCount s c.getID c.type = 0 := by
    simp [itemCount, ht, GoMap.has, hnone]
  rw [handle_con cf clk ht, if_neg (by simp [hd]), if_neg (by simp [inBlacklist, hb]), handleCon, if_pos hc]
  rcases storeGossipObject_cases cf clk s c hobj hd with ⟨h, _⟩ | ⟨⟨e, h⟩, _⟩ | ⟨_, h⟩
  · rw [hv] at h; cases h
  · rw [hv] at h; cases h
  · simp only [h]

/-- An INIT object that passes all checks is stored and sent to everybody, and its timer is armed. -/
theorem handle_init_new (cf : GConf L) (clk : Clock) (s : GState) (g : GossipObj) (H : StorageInv cf s.storage)
    (hT : 0 < cf.crypto.threshold) (ht : g.type = .STH_INIT ∨ g.type = .REV_INIT) (hv : g.verify cf.crypto = .ok)
    (hd : dupCheck s g = false) (hb : s.blacklist.has g.payload.p0 = false) (hm : isMalicious s g = false) :
    handle cf clk s g =
      ({ sendToMonitor (sendToGossipers cf (storedState cf clk s g) g) g with timers := s.timers ++ [g] }, false) := by
  have hobj : g.type.isObj = true := by rcases ht with h | h <;> simp [h, GType.isObj]
  have h1 : itemCount s g.getID (fullOfInit g.type) = 0 :=
    itemCount_mismatch cf H (by rcases ht with h | h <;> simp [GossipObj.getID, h, fullOfInit])
  have h2 : itemCount s g.getID (fragOfInit g.type) = 0 :=
    itemCount_mismatch cf H (by rcases ht with h | h <;> simp [GossipObj.getID, h, fragOfInit])
  rw [handle_sthrev cf clk ht, if_neg (by simp [hd]), if_neg (by simp [inBlacklist, hb]), handleInit, h1, h2,
    if_neg (by simp), if_neg (by simpa using hT), hm]
  rcases storeGossipObject_cases cf clk s g hobj hd with ⟨h, _⟩ | ⟨⟨e, h⟩, _⟩ | ⟨_, h⟩
  · rw [hv] at h; cases h
  · rw [hv] at h; cases h
  · simp [h]

/-- A new fragment below the threshold is stored and forwarded; nothing else happens. -/
theorem handle_frag_below (cf : GConf L) (clk : Clock) (s : GState) (g : GossipObj) (H : StorageInv cf s.storage)
    (ht : g.type.isFrag = true) (hd : dupCheck s g = false) (hb : s.blacklist.has g.payload.p0 = false)
    (hl : ((s.storage.fragList g.type g.getID).length : Int) + 1 < cf.crypto.threshold) :
    handle cf clk s g =
      (sendToGossipers cf { s with storage := s.storage.appendFrag g.type g.getID g } g, false) := by
  have h1 : itemCount s g.getID (fullTypeOf g.type) = 0 :=
    itemCount_mismatch cf H (by cases h : g.type <;> simp_all [GossipObj.getID, fullTypeOf, GType.isFrag])
  rw [handle_frag cf clk ht, if_neg (by simp [hd]), if_neg (by simp [inBlacklist, hb]), handleFrag, h1, if_neg (by simp),
    readAndStore_frag cf ht, if_pos (by omega)]
  simp only
  rw [if_neg (by omega)]
  simp only
  rw [if_pos (by omega)]

theorem dupCheck_frag {s : GState} {g : GossipObj} (ht : g.type.isFrag = true) :
    dupCheck s g = true ↔ ∃ v ∈ s.storage.fragList g.type g.getID, v.sig = g.sig := by
  unfold dupCheck
  cases hg : g.type <;> simp_all [GType.isFrag]

/-! ### C18 -/

theorem generateCON_verify {cf : GConf L} (clk : Clock) {o g : GossipObj} (ho : o.verify cf.crypto = .ok)
    (hg : g.verify cf.crypto = .ok) (hto : o.type = .STH_INIT ∨ o.type = .REV_INIT)
    (htg : g.type = .STH_INIT ∨ g.type = .REV_INIT) : (generateCON clk o g).verify cf.crypto = .ok := by
  have key : ∀ x : GossipObj, (x.type = .STH_INIT ∨ x.type = .REV_INIT) → x.verify cf.crypto = .ok →
      ∃ r, RSASig.fromStr L x.sig.s0 = some r ∧ cf.crypto.verify x.payload.cat r = .ok := by
    intro x hx hv
    have : x.verify cf.crypto = verifyRSAPayload x cf.crypto := by
      unfold GossipObj.verify; rcases hx with h | h <;> rw [h]
    rw [this, verifyRSAPayload] at hv
    split at hv
    · cases hr : RSASig.fromStr L x.sig.s0 with
      | none => rw [hr] at hv; cases hv
      | some r => rw [hr] at hv; exact ⟨r, rfl, hv⟩
    · cases hv
  obtain ⟨r1, a1, b1⟩ := key o hto ho
  obtain ⟨r2, a2, b2⟩ := key g htg hg
  simp only [GossipObj.verify, generateCON, verifyCON, a1, a2, b1, b2]

/-- C18. If a verifying STH_INIT or REV_INIT of one signer, entity and period is held and a second verifying one with a
different signature is handled, the entity is blacklisted afterwards, and a verifying conflict proof naming it has been
sent to every connected gossiper and to the owner monitor. -/
theorem C18_equivocation_detected (cf : GConf L) (hT : 0 < cf.crypto.threshold) (s : GState) (hs : GReach cf s)
    (t : GType) (ht : t = .STH_INIT ∨ t = .REV_INIT) (o g : GossipObj) (k : GossipID)
    (held : HeldAs s.storage k o t) (hgt : g.type = t) (hper : g.period = k.period) (hent : g.payload.p0 = k.entity)
    (hsigner : g.signer = o.signer) (hne : g.sig ≠ o.sig) (hv : g.verify cf.crypto = .ok)
    (hnb : s.blacklist.has g.payload.p0 = false) (clk : Clock) (n : Int) :
    ∃ c : GossipObj, c.type = .CON_INIT ∧ c.payload.p0 = g.payload.p0 ∧ c.verify cf.crypto = .ok ∧
      (gossipObjectHandler cf clk n s g).2 = false ∧
      (gossipObjectHandler cf clk n s g).1.blacklist.has g.payload.p0 = true ∧
      (gossipObjectHandler cf clk n s g).1.out =
        s.out ++ cf.connected.map (fun u => .peer u (go!"/gossip/con_init") (.obj c)) ++ [.owner c] := by
  have H := hs.storageInv cf
  obtain ⟨ho1, ho2, ho3⟩ := H.objs t k o (heldAs_iff.1 held)
  have hgt' : g.type = .STH_INIT ∨ g.type = .REV_INIT := by rw [hgt]; exact ht
  have hkey : g.getID = k := by
    rw [← ho1] at hper hent ⊢
    simp only [GossipObj.getID] at *
    rw [hper, hent, hgt, ho2]
  have hgetS : (s.storage.objs g.type).get g.getID = some o := by rw [hgt, hkey]; exact heldAs_iff.1 held
  have hobj : g.type.isObj = true := by rcases hgt' with h | h <;> simp [h, GType.isObj]
  have hnr : ¬ (cf.optMode = true ∧ g.type = .REV_FRAG) := by rcases hgt' with h | h <;> simp [h]
  rw [recv_verified cf clk n s g hnr hv]
  generalize hs0 : recvState cf n s g = s0
  have H0 : StorageInv cf s0.storage := by rw [← hs0]; exact recvState_inv cf n s g H hv
  have hget : (s0.storage.objs g.type).get g.getID = some o := by rw [← hs0]; simpa using hgetS
  have hb0 : s0.blacklist.has g.payload.p0 = false := by rw [← hs0]; simpa using hnb
  have hd : dupCheck s0 g = false := by
    cases hdc : dupCheck s0 g with
    | false => rfl
    | true =>
      obtain ⟨o', h1, h2⟩ := (dupCheck_obj hobj).1 hdc
      rw [hget] at h1; cases h1
      exact absurd h2.symm hne
  have hgo : getObject s0 g.getID g.type = o := by simp [getObject, hget]
  have hm : isMalicious s0 g = true := by
    unfold isMalicious
    rcases hgt' with h | h <;> rw [h] at hgo ⊢ <;> simp [hgo, hsigner, hne]
  have hp0 : o.payload.p0 = g.payload.p0 := by rw [hent, ← ho1]; rfl
  have hcv : (generateCON clk o g).verify cf.crypto = .ok :=
    generateCON_verify clk ho3 hv (by rw [ho2]; exact ht) hgt'
  have hnone : (s0.storage.objs .CON_INIT).get (generateCON clk o g).getID = none := by
    cases hc : (s0.storage.objs .CON_INIT).get (generateCON clk o g).getID with
    | none => rfl
    | some c =>
      have hc' : s.storage.conInit.get (generateCON clk o g).getID = some c := by
        rw [← hs0] at hc; rw [recvState_objs] at hc; exact hc
      have h1 := hs.conBlacklisted cf _ _ hc'
      obtain ⟨h2, _, _⟩ := H.objs .CON_INIT _ c hc'
      have : c.payload.p0 = g.payload.p0 := by
        have := congrArg GossipID.entity h2
        simpa [GossipObj.getID, generateCON, hp0] using this
      rw [this, hnb] at h1; cases h1
  have hcon := handle_con_new cf clk s0 (generateCON clk o g) rfl hcv hnone (by simpa [generateCON, hp0] using hb0)
  have h1 : itemCount s0 g.getID (fullOfInit g.type) = 0 :=
    itemCount_mismatch cf H0 (by rcases hgt' with h | h <;> simp [GossipObj.getID, h, fullOfInit])
  have h2 : itemCount s0 g.getID (fragOfInit g.type) = 0 :=
    itemCount_mismatch cf H0 (by rcases hgt' with h | h <;> simp [GossipObj.getID, h, fragOfInit])
  have hh : handle cf clk s0 g = handle cf clk s0 (generateCON clk o g) := by
    rw [handle_sthrev cf clk hgt', if_neg (by simp [hd]), if_neg (by simp [inBlacklist, hb0]), handleInit, h1, h2,
      if_neg (by simp), if_neg (by simpa using hT), if_pos hm, hgo]
  refine ⟨generateCON clk o g, rfl, hp0, hcv, ?_, ?_, ?_⟩
  · rw [hh, hcon]
  · rw [hh, hcon]
    simp only [blacklist_sendToMonitor, blacklist_sendToGossipers, blacklist_storedState]
    simp [generateCON, hp0]
  · rw [hh, hcon, broadcast_out cf _ _ (by simp [generateCON])]
    simp only [out_storedState, Broadcast, ← hs0, recvState_out, List.append_assoc]
    congr 2

/-- The hypotheses of C18 are met by the sample gossiper after it received one STH of L1. -/
example : ∃ s, GReach Ref.gconf s ∧ HeldAs s.storage Ref.sth.getID Ref.sth .STH_INIT ∧
    s.blacklist.has (go!"L1") = false ∧ Ref.sth'.verify Ref.gconf.crypto = .ok ∧ Ref.sth'.sig ≠ Ref.sth.sig :=
  ⟨grun Ref.gconf GState.init [(Ref.clk, .recv 10 Ref.sth)], ⟨_, rfl⟩, heldAs_iff.2 (by decide +kernel),
    by decide +kernel, by decide +kernel, by decide +kernel⟩

/-! ### C19, the attack -/

/-- C19 fails: whoever replays a held STH_INIT or REV_INIT with anything appended in the unused second signature slot
gets its honest signer blacklisted. The conflict proof carries the same statement and the same signature twice. -/
theorem C19_violated_replay_convicts (cf : GConf L) (hT : 0 < cf.crypto.threshold) (s : GState) (hs : GReach cf s)
    (t : GType) (ht : t = .STH_INIT ∨ t = .REV_INIT) (o : GossipObj) (k : GossipID) (held : HeldAs s.storage k o t)
    (hnb : s.blacklist.has o.payload.p0 = false) (junk : Str) (hj : junk ≠ o.sig.s1) (clk : Clock) (n : Int) :
    (gossipObjectHandler cf clk n s { o with sig := { o.sig with s1 := junk } }).1.blacklist.has o.payload.p0 = true := by
  obtain ⟨ho1, ho2, ho3⟩ := (hs.storageInv cf).objs t k o (heldAs_iff.1 held)
  have hv : ({ o with sig := { o.sig with s1 := junk } } : GossipObj).verify cf.crypto = .ok := by
    have e : ∀ x : GossipObj, (x.type = .STH_INIT ∨ x.type = .REV_INIT) → x.verify cf.crypto = verifyRSAPayload x cf.crypto := by
      intro x hx; unfold GossipObj.verify; rcases hx with h | h <;> rw [h]
    rw [e _ (by simpa [ho2] using ht)] at ho3 ⊢
    exact ho3
  obtain ⟨c, _, _, _, _, h, _⟩ := C18_equivocation_detected cf hT s hs t ht o
    { o with sig := { o.sig with s1 := junk } } k held ho2 (by rw [← ho1]; rfl) (by rw [← ho1]; rfl) rfl
    (by intro e; exact hj (congrArg Sig2.s1 e)) hv hnb clk n
  exact h

example : ∃ s, GReach Ref.gconf s ∧ HeldAs s.storage Ref.sth.getID Ref.sth .STH_INIT ∧
    s.blacklist.has Ref.sth.payload.p0 = false ∧ (go!"x") ≠ Ref.sth.sig.s1 :=
  ⟨grun Ref.gconf GState.init [(Ref.clk, .recv 10 Ref.sth)], ⟨_, rfl⟩, heldAs_iff.2 (by decide +kernel),
    by decide +kernel, by decide⟩

/-! ### C17 -/

theorem handle_blacklisted (cf : GConf L) (clk : Clock) (s : GState) (g : GossipObj)
    (hb : s.blacklist.has g.payload.p0 = true) : handle cf clk s g = (s, false) := by
  rw [handle_apply, dispatch]
  split
  · rfl
  · rw [if_pos (by exact hb)]

/-- C17, what holds: except for two cases below, an object naming a blacklisted entity changes nothing but the count of
received bytes: no storage, no blacklist, no timer, no output. Missing: large revocations reach the payload store, and in
optimised mode a revocation fragment loses the entity it names (see the two theorems below). -/
theorem C17_quarantine_partial (cf : GConf L) (clk : Clock) (n : Int) (s : GState) (g : GossipObj)
    (hb : s.blacklist.has g.payload.p0 = true) (h1 : ¬ (n > cf.optThreshold ∧ g.type = .REV_INIT))
    (h2 : ¬ (cf.optMode = true ∧ g.type = .REV_FRAG)) :
    gossipObjectHandler cf clk n s g = ({ s with trafficReceived := s.trafficReceived + n }, false) := by
  rw [recv_eq cf clk n s g h2, if_neg h1]
  exact handle_blacklisted cf clk _ g hb

/-- C17. A timer armed before the blacklisting signs and sends nothing. -/
theorem C17_timers_are_silenced (cf : GConf L) (clk : Clock) (s : GState) (i : Nat) (o : GossipObj)
    (hi : s.timers[i]? = some o) (hb : s.blacklist.has o.payload.p0 = true) :
    gstep cf s (clk, .fire i) = if s.crashed then s else { s with timers := s.timers.eraseIdx i } := by
  unfold gstep
  split
  · rfl
  · simp only [hi, timerFire, inBlacklist, hb, if_true]

/-- C17 fails for large revocations: a verifying REV_INIT naming a blacklisted entity is put into the payload store and
then handed out to whoever asks for it. -/
theorem C17_violated_large_revocation_served (cf : GConf L) (clk : Clock) (n m : Int) (s : GState) (g : GossipObj)
    (ht : g.type = .REV_INIT) (hv : g.verify cf.crypto = .ok) (hn : n > cf.optThreshold) (hp : g.payload.p0 ≠ [])
    (hb : s.blacklist.has g.payload.p0 = true) (who : Str) :
    let s' := (gossipObjectHandler cf clk n s g).1
    s'.blacklist.has g.payload.p0 = true ∧
    (requestHandler cf m s' { sender := who, period := g.period, type := .REV_INIT, entity := g.payload.p0, objhash := [] }).out
      = s.out ++ [.peer who (go!"/gossip/rev_init") (.obj g)] := by
  rw [recv_eq cf clk n s g (by simp [ht]), if_pos ⟨hn, ht⟩, hv]
  simp only
  rw [handle_blacklisted]
  · refine ⟨hb, ?_⟩
    simp only [requestHandler, getREVrequested]
    have : g.getID = { period := g.period, type := .REV_INIT, entity := g.payload.p0 } := by simp [GossipObj.getID, ht]
    simp [← this, hp]
  · exact hb

/-- C17 fails in optimised mode: a revocation fragment naming a blacklisted entity, for which no payload is saved, is
rewritten to name nobody, passes the blacklist check, is stored and forwarded to every connected gossiper. -/
theorem C17_violated_fragment_loses_its_name (cf : GConf L) (clk : Clock) (n : Int) (s : GState) (g : GossipObj)
    (hs : GReach cf s)
    (_hb : s.blacklist.has g.payload.p0 = true) (hopt : cf.optMode = true) (ht : g.type = .REV_FRAG) (hT : 2 ≤ cf.crypto.threshold)
    (hnone : s.storage.revPayload.get ⟨g.period, .REV_INIT, g.payload.p0⟩ = none)
    (hnew : s.storage.revFrag.get ⟨g.period, .REV_FRAG, []⟩ = none) (hempty : s.blacklist.has [] = false) :
    (gossipObjectHandler cf clk n s g).1.out =
      s.out ++ cf.connected.map fun u => .peer u (go!"/gossip/rev_frag") (.obj { g with payload := ⟨[], [], []⟩ }) := by
  have H := hs.storageInv cf
  unfold gossipObjectHandler
  simp only [ht, hopt, reduceCtorEq, and_false, if_false, and_self, if_true]
  have hr : reconstructPayload { s with trafficReceived := s.trafficReceived + n } g = { g with payload := ⟨[], [], []⟩ } := by
    simp [reconstructPayload, GossipObj.getID, hnone, GossipObj.zero]
  rw [hr]
  generalize hg' : ({ g with payload := ⟨[], [], []⟩ } : GossipObj) = g'
  have ht' : g'.type = .REV_FRAG := by rw [← hg']; exact ht
  have hid : g'.getID = ⟨g.period, .REV_FRAG, []⟩ := by rw [← hg']; simp [GossipObj.getID, ht]
  have hp : g'.payload.p0 = [] := by rw [← hg']
  have hfr : s.storage.fragList .REV_FRAG g'.getID = [] := by
    rw [hid]; simp [Storage.fragList, Storage.frags, hnew]
  have htf : g'.type.isFrag = true := by rw [ht']; rfl
  rw [← ht'] at hfr
  rw [handle_frag_below cf clk { s with trafficReceived := s.trafficReceived + n } g' H htf ?_ (by rw [hp]; exact hempty) (by simp only [hfr, List.length_nil]; omega)]
  · unfold sendToGossipers
    simp only [ht']
    rw [if_neg (by simp)]
    have : removePayload g' = g' := by rw [← hg']; rfl
    simp only [this, ite_self]
    simp only [← hg', ht]
    rfl
  · cases hdc : dupCheck { s with trafficReceived := s.trafficReceived + n } g' with
    | false => rfl
    | true =>
      obtain ⟨v, hv, _⟩ := (dupCheck_frag htf).1 hdc
      simp only [hfr] at hv
      cases hv

/-- The hypotheses of the C17 theorems are met: L1 is blacklisted after equivocating, with an armed timer. -/
example : ∃ s, GReach Ref.gconf s ∧ s.blacklist.has Ref.sth.payload.p0 = true ∧ s.timers[0]? = some Ref.sth ∧
    s.blacklist.has [] = false ∧ s.crashed = false :=
  ⟨grun Ref.gconf GState.init [(Ref.clk, .recv 10 Ref.sth), (Ref.clk, .recv 10 Ref.sth')], ⟨_, rfl⟩,
    by decide +kernel, by decide +kernel, by decide +kernel, by decide +kernel⟩

end CTng
