import Verif.Props.GossiperThreshold
import Verif.Props.GossiperFull
/- C30-C34: payload stripping, payload requests, the log, traffic counters, aggregation panics. -/
set_option autoImplicit false

namespace CTng
variable {L : Lib}

/-! ### C30 -/

/-- The fragment as it travels when its payload is stripped: only the entity name is left. -/
def stripped (g : GossipObj) : GossipObj := { g with payload := ⟨g.payload.p0, [], []⟩ }

theorem recv_revFrag (cf : GConf L) (clk : Clock) (n : Int) (s : GState) {g : GossipObj} (ht : g.type = .REV_FRAG)
    (hm : cf.optMode = true) : gossipObjectHandler cf clk n s g =
      handle cf clk { s with trafficReceived := s.trafficReceived + n }
        (reconstructPayload { s with trafficReceived := s.trafficReceived + n } g) := by
  have h1 : ¬ (n > cf.optThreshold ∧ g.type = .REV_INIT) := by rintro ⟨_, h⟩; simp [ht] at h
  unfold gossipObjectHandler
  simp only [h1, if_false, hm, true_and]
  rw [if_pos ht]

/-- C30, what holds: a receiver in optimisation mode that has saved a REV_INIT of the same period with the same payload
handles the stripped fragment exactly as it would handle the fragment itself. Missing: receivers that have not saved it or
are not in optimisation mode, see the two violations. -/
theorem C30_stripping_transparent_partial (cf : GConf L) (clk : Clock) (n : Int) (s : GState) (g o : GossipObj)
    (ht : g.type = .REV_FRAG) (hm : cf.optMode = true)
    (ho : s.storage.revPayload.get ⟨g.period, .REV_INIT, g.payload.p0⟩ = some o) (hp : o.payload = g.payload) :
    gossipObjectHandler cf clk n s (stripped g) =
      handle cf clk { s with trafficReceived := s.trafficReceived + n } g := by
  rw [recv_revFrag cf clk n s (g := stripped g) ht hm]
  have : reconstructPayload { s with trafficReceived := s.trafficReceived + n } (stripped g) = g := by
    unfold reconstructPayload
    have e : ({ (stripped g).getID with type := .REV_INIT } : GossipID) = ⟨g.period, .REV_INIT, g.payload.p0⟩ := rfl
    simp only [e, ho, Option.getD_some, hp]
    rfl
  rw [this]

/-- C30, sender: what a gossiper posts for a large REV_FRAG is the stripped fragment, to every peer. -/
theorem C30_sender_strips (cf : GConf L) (s : GState) (g : GossipObj) (ht : g.type = .REV_FRAG)
    (hl : (cf.jsonLen g : Int) > cf.optThreshold) :
    (sendToGossipers cf s g).out =
      s.out ++ cf.connected.map fun u => .peer u (go!"/gossip/rev_frag") (.obj (stripped g)) := by
  have h1 : ¬ ((cf.jsonLen g : Int) > cf.optThreshold ∧ g.type = .REV_INIT) := by rintro ⟨_, h⟩; simp [ht] at h
  unfold sendToGossipers
  simp only [h1, if_false, hl, ht, and_self, if_true]
  rfl

/-- C30, sender: a REV_FRAG whose encoding is not above the threshold is posted as it is, so that a receiver that does not
restore payloads gets it complete. -/
theorem C30_sender_keeps_small (cf : GConf L) (s : GState) (g : GossipObj) (ht : g.type = .REV_FRAG)
    (hl : (cf.jsonLen g : Int) ≤ cf.optThreshold) :
    (sendToGossipers cf s g).out = s.out ++ cf.connected.map fun u => .peer u (go!"/gossip/rev_frag") (.obj g) := by
  have h1 : ¬ ((cf.jsonLen g : Int) > cf.optThreshold ∧ g.type = .REV_INIT) := by rintro ⟨_, h⟩; simp [ht] at h
  have h2 : ¬ ((cf.jsonLen g : Int) > cf.optThreshold ∧ g.type = .REV_FRAG) := by rintro ⟨h, _⟩; omega
  unfold sendToGossipers
  simp only [h1, h2, if_false]
  rw [ht]
  rfl

/-- A REV_INIT of CA C1 for period "5". -/
def Ref.rev : GossipObj :=
  { Ref.sth with
    type := .REV_INIT, signer := go!"C1", payload := ⟨go!"C1", go!"srh", go!"delta"⟩
    sig := ⟨Ref.rsaStr (go!"C1") (go!"C1srhdelta"), []⟩ }

/-- A fragment of `id` for it. -/
def Ref.revFrag (id : Str) : GossipObj :=
  { Ref.rev with
    type := .REV_FRAG, signer := id, cryptoScheme := go!"bls"
    sig := ⟨Ref.blsStr id (go!"C1srhdelta"), []⟩ }

/-- A gossiper in optimisation mode. -/
def Ref.optConf : GConf Ref.lib := { Ref.gconf with optMode := true, optThreshold := 50 }

/-- Having received the large REV_INIT, the receiver keeps the original of a stripped fragment. -/
example : Ref.optConf.optMode = true ∧
    (gstep Ref.optConf (grun Ref.optConf .init [(Ref.clk, .recv 100 Ref.rev)])
      (Ref.clk, .recv 60 (stripped (Ref.revFrag (go!"G2"))))).storage.fragList .REV_FRAG (Ref.revFrag (go!"G2")).getID =
      [Ref.revFrag (go!"G2")] := by decide +kernel

/-- C30 violated: in optimisation mode, when the REV_INIT is not held, every REV_FRAG (stripped or not) loses its entity,
and the list it belongs to stays as it was. -/
theorem C30_violated_payload_not_held (cf : GConf L) (clk : Clock) (n : Int) (s : GState) (g : GossipObj)
    (ht : g.type = .REV_FRAG) (hm : cf.optMode = true) (hp : g.payload.p0 ≠ [])
    (ho : s.storage.revPayload.get ⟨g.period, .REV_INIT, g.payload.p0⟩ = none) :
    (gossipObjectHandler cf clk n s g).1.storage.fragList .REV_FRAG g.getID = s.storage.fragList .REV_FRAG g.getID := by
  rw [recv_revFrag cf clk n s ht hm]
  have e1 : ({ g.getID with type := .REV_INIT } : GossipID) = ⟨g.period, .REV_INIT, g.payload.p0⟩ := rfl
  have e : (reconstructPayload { s with trafficReceived := s.trafficReceived + n } g).payload = ⟨[], [], []⟩ := by
    unfold reconstructPayload
    simp only [e1, ho, Option.getD_none]
    rfl
  have et : (reconstructPayload { s with trafficReceived := s.trafficReceived + n } g).type = .REV_FRAG := ht
  rcases handle_frag_list cf clk { s with trafficReceived := s.trafficReceived + n }
    (reconstructPayload { s with trafficReceived := s.trafficReceived + n } g) (by rw [et]; rfl) .REV_FRAG g.getID with h | ⟨_, h, _⟩
  · exact h
  · exfalso
    have := congrArg GossipID.entity h
    simp only [GossipObj.getID, e] at this
    exact hp this.symm

/-- Such a fragment of a first-time receiver ends up under the empty entity name. -/
example : (gstep Ref.optConf .init (Ref.clk, .recv 60 (Ref.revFrag (go!"G2")))).storage.fragList .REV_FRAG
    ⟨go!"5", .REV_FRAG, []⟩ = [{ Ref.revFrag (go!"G2") with payload := ⟨[], [], []⟩ }] := by decide +kernel

/-- C30 violated: a receiver that is not in optimisation mode keeps a stripped fragment as it came, although it holds the
REV_INIT; the kept payload is not the one the signature is on. -/
theorem C30_violated_receiver_without_optimisation :
    (grun Ref.gconf .init [(Ref.clk, .recv 2000 Ref.rev),
      (Ref.clk, .recv 60 (stripped (Ref.revFrag (go!"G2"))))]).storage.fragList .REV_FRAG (Ref.revFrag (go!"G2")).getID =
      [stripped (Ref.revFrag (go!"G2"))] ∧
    (stripped (Ref.revFrag (go!"G2"))).verify Ref.gconf.crypto ≠ .ok ∧
    (Ref.revFrag (go!"G2")).verify Ref.gconf.crypto = .ok := by decide +kernel

/-! ### C31 -/

/-- The object held for a period and CA in the payload cache. -/
def SavedRev (s : Storage) (period entity : Str) (o : GossipObj) : Prop :=
  s.revPayload.get ⟨period, .REV_INIT, entity⟩ = some o

/-- C31. Whatever the schedule, a payload request is answered with the REV_INIT held for the requested period and entity
if there is one, and not answered otherwise; the object sent verifies. -/
theorem C31_request_answer (cf : GConf L) (c : CState) (hc : CReach cf c) (n : Int) (x : Notification) :
    (∃ o, SavedRev c.g.storage x.period x.entity o ∧ o.type = .REV_INIT ∧ o.period = x.period ∧ o.payload.p0 = x.entity ∧
      o.verify cf.crypto = .ok ∧
      (requestHandler cf n c.g x).out = c.g.out ++ [.peer x.sender (go!"/gossip/rev_init") (.obj o)]) ∨
    ((∀ o, ¬ SavedRev c.g.storage x.period x.entity o) ∧ (requestHandler cf n c.g x).out = c.g.out) := by
  obtain ⟨_, _, H, _⟩ := hc.main
  unfold requestHandler SavedRev getREVrequested
  dsimp only
  cases h : c.g.storage.revPayload.get ⟨x.period, .REV_INIT, x.entity⟩ with
  | none =>
    right
    exact ⟨by simp, rfl⟩
  | some o =>
    left
    obtain ⟨hk, ht, hv⟩ := H.storage.payload _ _ h
    have hp := congrArg GossipID.period hk
    have he := congrArg GossipID.entity hk
    have hne : o.payload.p0 ≠ [] := ((C01_init_verify_iff cf.crypto o (.inr (.inl ht))).1 hv).entity
    refine ⟨o, rfl, ht, hp, he, hv, ?_⟩
    simp only [Option.getD_some, ne_eq, hne, not_false_eq_true, if_true]

/-- C31. A notification triggers a request for the payload, to its sender, exactly when no object with the notified hash
is held for the notified period and entity. -/
theorem C31_notification_request (cf : GConf L) (s : GState) (n : Int) (x : Notification) :
    ((∃ o, SavedRev s.storage x.period x.entity o ∧ computeObjHash L o = x.objhash) →
      (notificationHandler cf n s x).out = s.out) ∧
    ((∀ o, SavedRev s.storage x.period x.entity o → computeObjHash L o ≠ x.objhash) →
      (notificationHandler cf n s x).out = s.out ++
        [.peer x.sender (go!"/gossip/new_payload_request") (.notif { x with sender := cf.crypto.selfID })]) := by
  unfold notificationHandler searchPayload SavedRev
  dsimp only
  constructor
  · rintro ⟨o, h, hh⟩
    rw [h]
    simp [hh]
  · intro h
    cases hg : s.storage.revPayload.get ⟨x.period, .REV_INIT, x.entity⟩ with
    | none => simp
    | some o => have := h o hg; simp [this]

/-- The text of an object that its notification commits to: everything but the second signature, the timestamp, the
scheme and the list of signers. -/
def NotifiedText (o : GossipObj) : Str :=
  o.sig.s0 ++ o.signer ++ o.period ++ o.type.toStr ++ o.payload.p0 ++ o.payload.p1 ++ o.payload.p2

/-- C31. A notification that a peer made for `o` is ignored only if an object of the same period and entity with the same
signature, signer, type and payload is held, or the two exhibit a collision of the hash function. -/
theorem C31_ignored_is_held (cf cf' : GConf L) (s : GState) (n : Int) (o : GossipObj)
    (h : (notificationHandler cf n s (notificationOf cf' o)).out = s.out) :
    ∃ o', SavedRev s.storage o.period o.payload.p0 o' ∧
      (NotifiedText o' = NotifiedText o ∨ NotifiedText o' ≠ NotifiedText o ∧ L.sha256 (NotifiedText o') = L.sha256 (NotifiedText o)) := by
  by_cases hh : ∃ o', SavedRev s.storage o.period o.payload.p0 o' ∧ computeObjHash L o' = computeObjHash L o
  · obtain ⟨o', h1, h2⟩ := hh
    refine ⟨o', h1, ?_⟩
    by_cases e : NotifiedText o' = NotifiedText o
    · exact .inl e
    · exact .inr ⟨e, h2⟩
  · have := (C31_notification_request cf s n (notificationOf cf' o)).2 fun o' h1 h2 => hh ⟨o', h1, h2⟩
    rw [h] at this
    simp at this

/-- Having received the large REV_INIT, a gossiper answers a request for it and does not ask for it again. -/
example :
    let s := grun Ref.optConf .init [(Ref.clk, .recv 100 Ref.rev)]
    let x := { notificationOf Ref.optConf Ref.rev with sender := go!"G2" }
    SavedRev s.storage x.period x.entity Ref.rev ∧
    (requestHandler Ref.optConf 30 s x).out = s.out ++ [.peer (go!"G2") (go!"/gossip/rev_init") (.obj Ref.rev)] ∧
    (notificationHandler Ref.optConf 30 s x).out = s.out ∧
    (notificationHandler Ref.optConf 30 GState.init x).out =
      [.peer (go!"G2") (go!"/gossip/new_payload_request") (.notif { x with sender := go!"G1" })] := by
  unfold SavedRev; decide +kernel

/-! ### C32 -/

/-- `n` is the number of keys with the property `P`. -/
def Count {K : Type} (P : K → Prop) (n : Nat) : Prop := ∃ ks : List K, ks.Nodup ∧ (∀ k, k ∈ ks ↔ P k) ∧ n = ks.length

/-- `n` is the number of fragments of type `t` held, over all statements. -/
def FragTotal (s : Storage) (t : GType) (n : Nat) : Prop :=
  ∃ ks : List (GossipID × List GossipObj), (ks.map Prod.fst).Nodup ∧ (∀ k l, (k, l) ∈ ks ↔ FragsAt s k l t) ∧
    n = (ks.map fun p => p.2.length).sum

/-- The counters of a log entry are those of the state. -/
structure Reports (s : GState) (e : LogEntry) : Prop where
  sthInit : Count (fun k => ∃ o, HeldAs s.storage k o .STH_INIT) e.numSthInit
  revInit : Count (fun k => ∃ o, HeldAs s.storage k o .REV_INIT) e.numRevInit
  accInit : Count (fun k => ∃ o, HeldAs s.storage k o .ACC_INIT) e.numAccInit
  conInit : Count (fun k => ∃ o, HeldAs s.storage k o .CON_INIT) e.numConInit
  sthFull : Count (fun k => ∃ o, HeldAs s.storage k o .STH_FULL) e.numSthFull
  revFull : Count (fun k => ∃ o, HeldAs s.storage k o .REV_FULL) e.numRevFull
  accFull : Count (fun k => ∃ o, HeldAs s.storage k o .ACC_FULL) e.numAccFull
  sthFrag : FragTotal s.storage .STH_FRAG e.numSthFrag
  revFrag : FragTotal s.storage .REV_FRAG e.numRevFrag
  accFrag : FragTotal s.storage .ACC_FRAG e.numAccFrag
  blacklist : Count (fun x => s.blacklist.has x = true) e.numBlacklist
  received : e.trafficReceived = s.trafficReceived
  sent : e.trafficSent = s.trafficSent

/-- Something is held: an INIT, CON or FULL object, a fragment, or a blacklist entry. -/
def NonEmpty (s : GState) : Prop :=
  (∃ t k o, HeldAs s.storage k o t) ∨ (∃ t k l, FragsAt s.storage k l t ∧ l ≠ []) ∨ ∃ x, s.blacklist.has x = true

theorem count_map {K V : Type} [DecidableEq K] (m : GoMap K V) : Count (fun k => ∃ o, m.get k = some o) m.len :=
  ⟨m.entries.map Prod.fst, m.nodup, fun k => m.mem_keys_iff k, by simp [GoMap.len]⟩

theorem count_congr {K : Type} {P Q : K → Prop} {n : Nat} (h : ∀ k, P k ↔ Q k) (hc : Count P n) : Count Q n := by
  obtain ⟨ks, h1, h2, h3⟩ := hc
  exact ⟨ks, h1, fun k => (h2 k).trans (h k), h3⟩

theorem fragsAt_iff {s : Storage} {k : GossipID} {l : List GossipObj} {t : GType} :
    FragsAt s k l t ↔ (s.frags t).get k = some l := by
  constructor
  · rintro (h | h | h) <;> exact h
  · intro h
    cases t with
    | STH_FRAG => exact .sth h
    | REV_FRAG => exact .rev h
    | ACC_FRAG => exact .acc h
    | _ => simp [Storage.frags] at h

theorem fragTotal_map (s : Storage) (t : GType) : FragTotal s t (countFragments (s.frags t)) :=
  ⟨(s.frags t).entries, (s.frags t).nodup, fun k l => by rw [fragsAt_iff, GoMap.get_eq_some_iff],
    by simp [countFragments, GoMap.values, List.map_map, Function.comp_def]⟩

theorem reports_logEntry (clk : Clock) (s : GState) : Reports s (logEntry clk s) where
  sthInit := count_congr (fun k => by simp [heldAs_iff, Storage.objs]) (count_map s.storage.sthInit)
  revInit := count_congr (fun k => by simp [heldAs_iff, Storage.objs]) (count_map s.storage.revInit)
  accInit := count_congr (fun k => by simp [heldAs_iff, Storage.objs]) (count_map s.storage.accInit)
  conInit := count_congr (fun k => by simp [heldAs_iff, Storage.objs]) (count_map s.storage.conInit)
  sthFull := count_congr (fun k => by simp [heldAs_iff, Storage.objs]) (count_map s.storage.sthFull)
  revFull := count_congr (fun k => by simp [heldAs_iff, Storage.objs]) (count_map s.storage.revFull)
  accFull := count_congr (fun k => by simp [heldAs_iff, Storage.objs]) (count_map s.storage.accFull)
  sthFrag := fragTotal_map s.storage .STH_FRAG
  revFrag := fragTotal_map s.storage .REV_FRAG
  accFrag := fragTotal_map s.storage .ACC_FRAG
  blacklist := count_congr (fun k => by simp [GoMap.has_iff]) (count_map s.blacklist)
  received := rfl
  sent := rfl

theorem sum_eq_zero {l : List Nat} (h : ∀ n ∈ l, n = 0) : l.sum = 0 := by
  induction l with
  | nil => rfl
  | cons a t ih => rw [List.sum_cons, h a (by simp), ih (fun n hn => h n (by simp [hn]))]

theorem nonEmpty_iff (clk : Clock) (s : GState) : NonEmpty s ↔
    (let e := logEntry clk s
     e.numSthInit ≠ 0 ∨ e.numRevInit ≠ 0 ∨ e.numAccInit ≠ 0 ∨ e.numConInit ≠ 0 ∨
     e.numSthFrag ≠ 0 ∨ e.numRevFrag ≠ 0 ∨ e.numAccFrag ≠ 0 ∨
     e.numSthFull ≠ 0 ∨ e.numRevFull ≠ 0 ∨ e.numAccFull ≠ 0 ∨ e.numBlacklist ≠ 0) := by
  have hlen : ∀ m : GoMap GossipID GossipObj, m.len ≠ 0 ↔ ∃ k o, m.get k = some o := by
    intro m
    rw [Ne, GoMap.len_eq_zero_iff]
    constructor
    · intro h
      refine Classical.byContradiction fun hn => h fun k => ?_
      cases hk : m.get k with
      | none => rfl
      | some o => exact absurd ⟨k, o, hk⟩ hn
    · rintro ⟨k, o, h⟩ hn; rw [hn k] at h; cases h
  have hbl : s.blacklist.len ≠ 0 ↔ ∃ x, s.blacklist.has x = true := by
    rw [Ne, GoMap.len_eq_zero_iff]
    constructor
    · intro h
      refine Classical.byContradiction fun hn => h fun k => ?_
      cases hk : s.blacklist.get k with
      | none => rfl
      | some o => exact absurd ⟨k, (GoMap.has_iff _ _).2 ⟨o, hk⟩⟩ hn
    · rintro ⟨k, h⟩ hn; simp [GoMap.has, hn k] at h
  have hfr : ∀ m : GoMap GossipID (List GossipObj), countFragments m ≠ 0 ↔ ∃ k l, m.get k = some l ∧ l ≠ [] := by
    intro m
    unfold countFragments
    constructor
    · intro h
      refine Classical.byContradiction fun hn => h (sum_eq_zero ?_)
      intro n hn'
      obtain ⟨l, hl, rfl⟩ := List.mem_map.1 hn'
      obtain ⟨k, hk⟩ := (GoMap.mem_values_iff _ _).1 hl
      cases l with
      | nil => rfl
      | cons a t => exact absurd ⟨k, _, hk, by simp⟩ hn
    · rintro ⟨k, l, hk, hl⟩ h0
      have : l.length ≤ (m.values.map List.length).sum :=
        le_sum_of_mem (List.mem_map.2 ⟨l, (GoMap.mem_values_iff _ _).2 ⟨k, hk⟩, rfl⟩)
      rw [h0] at this
      exact hl (List.eq_nil_of_length_eq_zero (Nat.le_zero.1 this))
  simp only [logEntry, hlen, hbl, hfr]
  unfold NonEmpty
  constructor
  · rintro (⟨t, k, o, h⟩ | ⟨t, k, l, h, hl⟩ | h)
    · cases h <;> rename_i h <;>
        (have hx : ∃ k o, GoMap.get _ k = some o := ⟨k, o, h⟩) <;> simp only [hx, true_or, or_true]
    · cases h <;> rename_i h <;>
        (have hx : ∃ k l, GoMap.get _ k = some l ∧ l ≠ [] := ⟨k, l, h, hl⟩) <;> simp only [hx, true_or, or_true]
    · simp only [h, or_true]
  · rintro (⟨k, o, h⟩ | ⟨k, o, h⟩ | ⟨k, o, h⟩ | ⟨k, o, h⟩ | ⟨k, l, h, hl⟩ | ⟨k, l, h, hl⟩ | ⟨k, l, h, hl⟩ | ⟨k, o, h⟩ |
      ⟨k, o, h⟩ | ⟨k, o, h⟩ | h)
    · exact .inl ⟨_, k, o, .sthInit h⟩
    · exact .inl ⟨_, k, o, .revInit h⟩
    · exact .inl ⟨_, k, o, .accInit h⟩
    · exact .inl ⟨_, k, o, .conInit h⟩
    · exact .inr (.inl ⟨_, k, l, .sth h, hl⟩)
    · exact .inr (.inl ⟨_, k, l, .rev h, hl⟩)
    · exact .inr (.inl ⟨_, k, l, .acc h, hl⟩)
    · exact .inl ⟨_, k, o, .sthFull h⟩
    · exact .inl ⟨_, k, o, .revFull h⟩
    · exact .inl ⟨_, k, o, .accFull h⟩
    · exact .inr (.inr h)

/-- C32. Save writes the entry of the current period with the true counts when something is held, leaves the entries of
the other periods, and changes nothing when nothing is held. -/
theorem C32_log_entry (clk : Clock) (s : GState) :
    (NonEmpty s → ∃ e, (save clk s).log.get clk.period = some e ∧ Reports s e ∧
      ∀ p, p ≠ clk.period → (save clk s).log.get p = s.log.get p) ∧
    (¬ NonEmpty s → save clk s = s) := by
  constructor
  · intro h
    have h' := (nonEmpty_iff clk s).1 h
    refine ⟨logEntry clk s, ?_, reports_logEntry clk s, ?_⟩
    · unfold save; dsimp only at h' ⊢; rw [if_pos h']; simp
    · intro p hp; unfold save; dsimp only at h' ⊢; rw [if_pos h']; simp [hp]
  · intro h
    have h' := fun x => h ((nonEmpty_iff clk s).2 x)
    unfold save; dsimp only at h' ⊢; rw [if_neg h']

/-- C32. The periodic task logs first and wipes afterwards: run without interruption from any state in which something is
held, it leaves an entry that reports this state, and of the stores only the conflict proofs. -/
theorem C32_periodic_logs_then_wipes (cf : GConf L) (c : CState) (hc : c.g.crashed = false) (hn : NonEmpty c.g)
    (k0 k1 k2 : Clock) :
    let c' := crun cf c [(k0, .periodic), (k1, .run c.threads.length), (k2, .run c.threads.length)]
    (∃ e, c'.g.log.get k1.period = some e ∧ Reports c.g e) ∧
    (∀ t k o, HeldAs c'.g.storage k o t → t = .CON_INIT) ∧ ∀ k o, HeldAs c'.g.storage k o .CON_INIT ↔ HeldAs c.g.storage k o .CON_INIT := by
  obtain ⟨e, h1, h2, _⟩ := (C32_log_entry k1 c.g).1 hn
  have hs : (save k1 c.g).crashed = false := by unfold save; dsimp only; split <;> exact hc
  have hst : (save k1 c.g).storage = c.g.storage := by unfold save; dsimp only; split <;> rfl
  have e1 : crun cf c [(k0, .periodic), (k1, .run c.threads.length), (k2, .run c.threads.length)] =
      ⟨wipeStorage (save k1 c.g), c.threads ++ [⟨[], true⟩]⟩ := by
    simp [crun, cstep, hc, stepThread, stepFrame, hs]
  intro c'
  have e2 : c'.g.storage = { Storage.init with conInit := c.g.storage.conInit } := by
    show (crun cf c _).g.storage = _
    rw [e1]
    show ({ Storage.init with conInit := (save k1 c.g).storage.conInit } : Storage) = _
    rw [hst]
  refine ⟨⟨e, ?_, h2⟩, ?_, ?_⟩
  · show (crun cf c _).g.log.get _ = _
    rw [e1]
    exact h1
  · intro t k o h
    rw [e2] at h
    cases h <;> first | rfl | (rename_i h; cases h)
  · intro k o
    rw [e2]
    constructor <;> (intro h; cases h; exact .conInit (by assumption))

/-- C32. The counters of an entry are determined by the state: two entries that report one state agree. -/
theorem C32_counts_determined {K : Type} (P : K → Prop) (n m : Nat) (hn : Count P n) (hm : Count P m) : n = m := by
  obtain ⟨a, a1, a2, rfl⟩ := hn
  obtain ⟨b, b1, b2, rfl⟩ := hm
  exact Nat.le_antisymm (length_le_of_subset a1 fun x hx => (b2 x).2 ((a2 x).1 hx))
    (length_le_of_subset b1 fun x hx => (a2 x).2 ((b2 x).1 hx))

/-- Every statement held stays held, every list of fragments is only extended. -/
structure Grown (s s' : Storage) : Prop where
  held : ∀ t k o, HeldAs s k o t → ∃ o', HeldAs s' k o' t
  frags : ∀ t k l, FragsAt s k l t → ∃ r, FragsAt s' k (l ++ r) t
  payload : ∀ k o, s.revPayload.get k = some o → ∃ o', s'.revPayload.get k = some o'

theorem Grown.refl (s : Storage) : Grown s s :=
  ⟨fun _ _ o h => ⟨o, h⟩, fun _ _ _ h => ⟨[], by simpa using h⟩, fun _ o h => ⟨o, h⟩⟩

theorem Grown.trans {a b c : Storage} (h1 : Grown a b) (h2 : Grown b c) : Grown a c where
  held t k o h := by obtain ⟨o', h'⟩ := h1.held t k o h; exact h2.held t k o' h'
  frags t k l h := by
    obtain ⟨r, h'⟩ := h1.frags t k l h
    obtain ⟨r', h''⟩ := h2.frags t k _ h'
    exact ⟨r ++ r', by rw [← List.append_assoc]; exact h''⟩
  payload k o h := by obtain ⟨o', h'⟩ := h1.payload k o h; exact h2.payload k o' h'

theorem SStep.grown {cf : GConf L} {s : GState} {f : Frame} {s' : Storage} (h : SStep cf s f s') (hf : f ≠ .wipe) :
    Grown s.storage s' := by
  cases h with
  | same => exact .refl _
  | payload n g hv ht hn =>
    refine ⟨fun t k o h => ⟨o, ?_⟩, fun t k l h => ⟨[], ?_⟩, fun k o h => ?_⟩
    · rw [heldAs_iff] at h ⊢; cases t <;> exact h
    · rw [fragsAt_iff] at h ⊢; rw [List.append_nil]; cases t <;> exact h
    · simp only [GoMap.get_set]; split
      · exact ⟨g, rfl⟩
      · exact ⟨o, h⟩
  | put g hv ht hd =>
    refine ⟨fun t k o h => ?_, fun t k l h => ⟨[], ?_⟩, fun k o h => ⟨o, ?_⟩⟩
    · simp only [heldAs_iff] at h ⊢
      by_cases e : t = g.type
      · subst e
        rw [Storage.objs_putObj_same _ _ _ _ ht, GoMap.get_set]
        split
        · exact ⟨g, rfl⟩
        · exact ⟨o, h⟩
      · rw [Storage.objs_putObj_ne _ _ _ e]; exact ⟨o, h⟩
    · rw [fragsAt_iff] at h ⊢
      rw [List.append_nil]
      unfold Storage.putObj
      split <;> cases t <;> exact h
    · unfold Storage.putObj; split <;> exact h
  | frag g ht hl =>
    refine ⟨fun t k o h => ⟨o, ?_⟩, fun t k l h => ?_, fun k o h => ⟨o, ?_⟩⟩
    · simp only [heldAs_iff] at h ⊢; simpa using h
    · simp only [fragsAt_iff] at h ⊢
      by_cases e : t = g.type ∧ k = g.getID
      · obtain ⟨rfl, rfl⟩ := e
        refine ⟨[g], ?_⟩
        unfold Storage.appendFrag
        cases htt : g.type <;> rw [htt] at ht h <;> simp [GType.isFrag] at ht <;>
          simp only [Storage.frags] at h ⊢ <;> simp [Storage.fragList, Storage.frags, h]
      · refine ⟨[], ?_⟩
        rw [List.append_nil]
        unfold Storage.appendFrag
        cases htt : g.type <;> cases t <;> first
          | exact h
          | (simp only [Storage.frags] at h ⊢
             have hk : k ≠ g.getID := fun hk => e ⟨htt.symm, hk⟩
             rw [GoMap.get_set_ne _ _ hk]; exact h)
    · unfold Storage.appendFrag; split <;> exact h
  | wipe => exact absurd rfl hf

/-- Without a wipe in progress or starting, one event leaves the store grown and no wipe in progress. -/
theorem grown_cstep (cf : GConf L) (c : CState) (hwt : ∀ t ∈ c.threads, ∀ f ∈ t.frames, f.wt) (hw : NoWipe c)
    (e : Clock × CEvent) (he : e.2 ≠ .periodic) :
    Grown c.g.storage (cstep cf c e).g.storage ∧ NoWipe (cstep cf c e) := by
  obtain ⟨clk, ev⟩ := e
  have spawn : ∀ (g : GState) (fs : List Frame) (b : Bool), Frame.wipe ∉ fs → NoWipe ⟨g, c.threads ++ [⟨fs, b⟩]⟩ := by
    intro g fs b h t ht
    rcases List.mem_append.1 ht with ht | ht
    · exact hw t ht
    · simp at ht; subst ht; exact h
  by_cases hcr : c.g.crashed = true
  · have : cstep cf c (clk, ev) = c := by unfold cstep; rw [if_pos hcr]
    rw [this]; exact ⟨.refl _, hw⟩
  · cases ev with
    | recv n o => unfold cstep; rw [if_neg hcr]; exact ⟨.refl _, spawn _ _ _ (by simp)⟩
    | notify n o => unfold cstep; rw [if_neg hcr]; exact ⟨.refl _, spawn _ _ _ (by simp)⟩
    | request n o => unfold cstep; rw [if_neg hcr]; exact ⟨.refl _, spawn _ _ _ (by simp)⟩
    | periodic => exact absurd rfl he
    | fire i =>
      unfold cstep; rw [if_neg hcr]
      simp only
      split
      · exact ⟨.refl _, hw⟩
      · exact ⟨.refl _, spawn _ _ _ (by simp)⟩
    | run i =>
      cases ht : c.threads[i]? with
      | none =>
        unfold cstep; rw [if_neg hcr]; simp only [ht]
        exact ⟨.refl _, hw⟩
      | some t =>
        have htm : t ∈ c.threads := List.mem_of_getElem? ht
        cases hf : t.frames with
        | nil =>
          unfold cstep; rw [if_neg hcr]; simp only [ht, stepThread, hf]
          refine ⟨.refl _, ?_⟩
          intro t' ht'
          rcases List.mem_or_eq_of_mem_set ht' with h1 | h1
          · exact hw t' h1
          · rw [h1]; exact hw t htm
        | cons f fs =>
          have hfw : f ≠ .wipe := fun e => hw t htm (by rw [hf, e]; simp)
          have hfs : Frame.wipe ∉ fs := fun e => hw t htm (by rw [hf]; simp [e])
          have hs := (stepFrame_storage cf clk c.g f (hwt t htm f (by rw [hf]; simp))).grown hfw
          rw [cstep_run cf (by simpa using hcr) ht hf]
          rcases hst : stepFrame cf clk c.g f with ⟨s', new⟩
          rw [hst] at hs
          cases new with
          | some new =>
            refine ⟨hs, ?_⟩
            intro t' ht'
            rcases List.mem_or_eq_of_mem_set ht' with h1 | h1
            · exact hw t' h1
            · subst h1
              intro hmem
              rcases List.mem_append.1 hmem with h2 | h2
              · exact new_noWipe cf clk c.g f new (by rw [hst]) h2
              · exact hfs h2
          | none =>
            refine ⟨?_, ?_⟩
            · dsimp only; split <;> exact hs
            · intro t' ht'
              rcases List.mem_or_eq_of_mem_set ht' with h1 | h1
              · exact hw t' h1
              · subst h1; simp

theorem CReach.step {cf : GConf L} {c : CState} (hc : CReach cf c) (e : Clock × CEvent) : CReach cf (cstep cf c e) := by
  obtain ⟨h, rfl⟩ := hc
  exact ⟨h ++ [e], by simp [crun]⟩

/-- C32. Between wipes stores only grow, whatever the schedule: from a state in which no goroutine is about to wipe,
as long as the periodic task is not started. -/
theorem C32_stores_grow_between_wipes (cf : GConf L) (c : CState) (hc : CReach cf c) (hw : NoWipe c)
    (es : List (Clock × CEvent)) (hes : ∀ e ∈ es, e.2 ≠ .periodic) :
    Grown c.g.storage (crun cf c es).g.storage := by
  induction es generalizing c with
  | nil => exact .refl _
  | cons e t ih =>
    obtain ⟨_, _, _, F⟩ := hc.main
    obtain ⟨h1, h2⟩ := grown_cstep cf c (fun t ht f hf => (F t ht f hf).1) hw e (hes e (by simp))
    exact h1.trans (ih (cstep cf c e) (hc.step e) h2 (fun e he => hes e (by simp [he])))

/-- A gossiper that has handled an STH and two fragments reports them. -/
example : NonEmpty (crun Ref.gconf CState.init Ref.fragSchedule).g ∧
    ((save Ref.clk (crun Ref.gconf CState.init Ref.fragSchedule).g).log.get (go!"05")).map
      (fun e => (e.numSthFrag, e.numSthFull)) = some (2, 1) :=
  ⟨.inr (.inl ⟨_, (Ref.frag (go!"G1")).getID, [Ref.frag (go!"G1"), Ref.frag (go!"G2")], .sth (by decide +kernel), by simp⟩),
    by decide +kernel⟩

example : ¬ NonEmpty GState.init := by
  rintro (⟨t, k, o, h⟩ | ⟨t, k, l, h, _⟩ | ⟨x, h⟩)
  · rw [heldAs_iff] at h; cases t <;> simp [GState.init, Storage.init, Storage.objs] at h
  · rw [fragsAt_iff] at h; cases t <;> simp [GState.init, Storage.init, Storage.frags] at h
  · simp [GState.init] at h

/-! ### C33 -/

/-- Size of a posted body. -/
def bodySize (cf : GConf L) : Body → Nat
  | .obj o => cf.jsonLen o
  | .notif n => cf.notifLen n

/-- Bytes posted to other gossipers: each post counts its body. -/
def bytesPosted (cf : GConf L) (out : List Out) : Int :=
  (out.map fun o => match o with | .peer _ _ b => (bodySize cf b : Int) | _ => 0).sum

/-- Content-Length of the requests that arrived. -/
def bytesArrived (h : List (Clock × CEvent)) : Int :=
  (h.map fun e => match e.2 with | .recv n _ => n | .notify n _ => n | .request n _ => n | _ => 0).sum

/-- No request is waiting for its first step. -/
def NoneWaiting (c : CState) : Prop :=
  ∀ t ∈ c.threads, ∀ f ∈ t.frames, match f with | .recv _ _ => False | .notify _ _ => False | .request _ _ => False | _ => True

theorem bytesPosted_append (cf : GConf L) (a b : List Out) :
    bytesPosted cf (a ++ b) = bytesPosted cf a + bytesPosted cf b := by
  unfold bytesPosted; rw [List.map_append, List.sum_append]

theorem bytesPosted_const (cf : GConf L) (l : List Str) (e : Str) (b : Body) :
    bytesPosted cf (l.map fun u => .peer u e b) = (bodySize cf b : Int) * l.length := by
  induction l with
  | nil => simp [bytesPosted]
  | cons a t ih =>
    rw [List.map_cons, ← List.singleton_append, bytesPosted_append, ih]
    simp only [bytesPosted, List.map_cons, List.map_nil, List.sum_cons, List.sum_nil, List.length_cons]
    push_cast
    rw [Int.mul_add]; omega

/-- The bytes a frame will add to the received counter. -/
def Frame.bytes : Frame → Int
  | .recv n _ => n
  | .notify n _ => n
  | .request n _ => n
  | _ => 0


theorem stepFrame_received (cf : GConf L) (clk : Clock) (s : GState) (f : Frame) :
    (stepFrame cf clk s f).1.trafficReceived = s.trafficReceived + f.bytes := by
  have hsl : ∀ (s : GState) (g : GossipObj), (storeLocked s g).1.trafficReceived = s.trafficReceived := by
    intro s g; unfold storeLocked; split <;> (try split) <;> rfl
  cases f with
  | recv n g =>
    have key : (stepFrame cf clk s (.recv n g)).1 = (if n > cf.optThreshold ∧ g.type = .REV_INIT
        then savePayload cf { s with trafficReceived := s.trafficReceived + n } g
        else ({ s with trafficReceived := s.trafficReceived + n }, true)).1 := by
      simp only [stepFrame]
      split <;> (rename_i h; rw [h])
    rw [key]
    split
    · rcases savePayload_eq cf { s with trafficReceived := s.trafficReceived + n } g with h | ⟨_, h⟩ <;> rw [h] <;> rfl
    · rfl
  | store g =>
    simp only [stepFrame, Frame.bytes, Int.add_zero]
    split
    · rfl
    · rfl
    · split <;> (rename_i h; have := hsl { s with timerlist := s.timerlist ++ [clk.second] } g; rw [h] at this; exact this)
  | storeBl g =>
    simp only [stepFrame, Frame.bytes, Int.add_zero, storeBlacklist, addBlacklist]
    split <;> (try split) <;> rfl
  | storeNote g =>
    simp only [stepFrame, Frame.bytes, Int.add_zero, storeNote, noteInitConverge]
    split <;> (try split) <;> rfl
  | sendPeers g =>
    simp only [stepFrame, Frame.bytes, Int.add_zero, sendToGossipers]
    split <;> rfl
  | sign g =>
    simp only [stepFrame, Frame.bytes, Int.add_zero, signStatement]
    cases generateFRAG cf g <;> rfl
  | fragStore g =>
    simp only [stepFrame, Frame.bytes, Int.add_zero, readAndStore]
    split <;> (try split) <;> rfl
  | fragGen g =>
    simp only [stepFrame, Frame.bytes, Int.add_zero]
    split <;> rfl
  | fullNote =>
    simp only [stepFrame, Frame.bytes, Int.add_zero, noteConverge]
    split <;> rfl
  | notify n x =>
    simp only [stepFrame, Frame.bytes, notificationHandler]
    split <;> rfl
  | request n x =>
    simp only [stepFrame, Frame.bytes, requestHandler]
    split <;> rfl
  | save =>
    simp only [stepFrame, Frame.bytes, Int.add_zero, save]
    split <;> rfl
  | _ => simp [stepFrame, Frame.bytes, sendToMonitor, GState.emit, wipeStorage]

theorem stepFrame_sent (cf : GConf L) (clk : Clock) (s : GState) (f : Frame) :
    (stepFrame cf clk s f).1.trafficSent - bytesPosted cf (stepFrame cf clk s f).1.out =
      s.trafficSent - bytesPosted cf s.out := by
  have hsl : ∀ (s : GState) (g : GossipObj), (storeLocked s g).1.trafficSent = s.trafficSent ∧ (storeLocked s g).1.out = s.out := by
    intro s g; unfold storeLocked; split <;> (try split) <;> exact ⟨rfl, rfl⟩
  cases f with
  | recv n g =>
    have key : (stepFrame cf clk s (.recv n g)).1 = (if n > cf.optThreshold ∧ g.type = .REV_INIT
        then savePayload cf { s with trafficReceived := s.trafficReceived + n } g
        else ({ s with trafficReceived := s.trafficReceived + n }, true)).1 := by
      simp only [stepFrame]
      split <;> (rename_i h; rw [h])
    rw [key]
    split
    · rcases savePayload_eq cf { s with trafficReceived := s.trafficReceived + n } g with h | ⟨_, h⟩ <;> rw [h]
    · rfl
  | store g =>
    simp only [stepFrame]
    split
    · rfl
    · rfl
    · split <;> (rename_i h; have := hsl { s with timerlist := s.timerlist ++ [clk.second] } g; rw [h] at this; rw [this.1, this.2])
  | storeBl g =>
    simp only [stepFrame, storeBlacklist, addBlacklist]
    split <;> (try split) <;> rfl
  | storeNote g =>
    simp only [stepFrame, storeNote, noteInitConverge]
    split <;> (try split) <;> rfl
  | sendPeers g =>
    simp only [stepFrame, sendToGossipers]
    split <;> simp only [bytesPosted_append, bytesPosted_const, bodySize] <;> omega
  | sendOwner g =>
    simp only [stepFrame, sendToMonitor, GState.emit, bytesPosted_append]
    simp [bytesPosted]
  | sign g =>
    simp only [stepFrame, signStatement]
    cases generateFRAG cf g
    · rfl
    · simp only [Option.map_some, GState.emit, bytesPosted_append]; simp [bytesPosted]
  | fragStore g =>
    simp only [stepFrame, readAndStore]
    split <;> (try split) <;> rfl
  | fragGen g =>
    simp only [stepFrame]
    split
    · rfl
    · simp only [GState.emit, bytesPosted_append]; simp [bytesPosted]
  | fullNote =>
    simp only [stepFrame, noteConverge]
    split <;> rfl
  | notify n x =>
    simp only [stepFrame, notificationHandler]
    split
    · simp only [bytesPosted_append]; simp [bytesPosted, bodySize]; omega
    · rfl
  | request n x =>
    simp only [stepFrame, requestHandler]
    split
    · simp only [bytesPosted_append]; simp [bytesPosted, bodySize]; omega
    · rfl
  | save =>
    simp only [stepFrame, save]
    split <;> rfl
  | _ => simp [stepFrame, wipeStorage]

/-- C33. Whatever the schedule, the sent counter is the sum of the sizes of all bodies posted to other gossipers. -/
theorem C33_sent_exact (cf : GConf L) (c : CState) (hc : CReach cf c) : c.g.trafficSent = bytesPosted cf c.g.out := by
  obtain ⟨h, rfl⟩ := hc
  have key : ∀ (h : List (Clock × CEvent)) (c : CState), c.g.trafficSent = bytesPosted cf c.g.out →
      (crun cf c h).g.trafficSent = bytesPosted cf (crun cf c h).g.out := by
    intro h
    induction h with
    | nil => intro c hc; exact hc
    | cons e t ih =>
      intro c hc
      refine ih (cstep cf c e) ?_
      obtain ⟨clk, ev⟩ := e
      unfold cstep
      split
      · exact hc
      · cases ev with
        | fire i => simp only; split <;> exact hc
        | run i =>
          simp only
          split
          · exact hc
          · rename_i t _
            simp only [stepThread]
            split
            · exact hc
            · rename_i f fs _
              have hs := stepFrame_sent cf clk c.g f
              rcases hst : stepFrame cf clk c.g f with ⟨s', new⟩
              rw [hst] at hs
              cases new with
              | some new => dsimp only at hs ⊢; omega
              | none => dsimp only at hs ⊢; split <;> ((try dsimp only); omega)
        | _ => exact hc
  exact key h CState.init (by simp [CState.init, GState.init, bytesPosted])

theorem isum_set {α : Type _} (f : α → Int) (l : List α) (i : Nat) (t t' : α) (h : l[i]? = some t) :
    ((l.set i t').map f).sum + f t = (l.map f).sum + f t' := by
  induction l generalizing i with
  | nil => simp at h
  | cons a l ih =>
    cases i with
    | zero => simp at h; subst h; simp; omega
    | succ i =>
      simp at h
      have := ih i h
      simp only [List.set_cons_succ, List.map_cons, List.sum_cons]
      omega

theorem isum_zero {α : Type _} {f : α → Int} {l : List α} (h : ∀ x ∈ l, f x = 0) : (l.map f).sum = 0 := by
  induction l with
  | nil => rfl
  | cons a t ih => rw [List.map_cons, List.sum_cons, h a (by simp), ih (fun n hn => h n (by simp [hn]))]; rfl

theorem new_bytes (cf : GConf L) (clk : Clock) (s : GState) (f : Frame) (new : List Frame)
    (h : (stepFrame cf clk s f).2 = some new) : ∀ f' ∈ new, f'.bytes = 0 := by
  intro f' hf'
  have aft : ∀ g b, ∀ f' ∈ afterStore g b, f'.bytes = 0 := by
    intro g b f' h; unfold afterStore at h; split at h <;> (try split at h) <;> simp at h <;>
      (try rcases h with rfl | rfl | rfl) <;> (try rcases h with rfl | rfl) <;> (try subst h) <;> rfl
  have one : ∀ {p : Prop} [Decidable p] {a b : List Frame}, f' ∈ (if p then a else b) → f' ∈ a ∨ f' ∈ b := by
    intro p _ a b h; split at h
    · exact .inl h
    · exact .inr h
  cases f with
  | fragStore g =>
    simp only [stepFrame, Option.some.injEq] at h
    subst h
    rcases List.mem_append.1 hf' with h1 | h1 <;> split at h1 <;> simp at h1 <;> subst h1 <;> rfl
  | recv n g =>
    simp only [stepFrame] at h
    split at h <;> simp at h
    subst h; simp at hf'; subst hf'; rfl
  | store g =>
    simp only [stepFrame] at h
    split at h
    · cases h
    · simp at h; subst h; exact aft _ _ _ hf'
    · split at h
      · simp at h; subst h; exact aft _ _ _ hf'
      · simp at h; subst h; simp at hf'; subst hf'; rfl
  | storeNote g => simp [stepFrame] at h; subst h; exact aft _ _ _ hf'
  | blk g =>
    simp [stepFrame] at h; subst h
    split at hf'
    · simp at hf'
    · split at hf' <;> simp at hf' <;> subst hf' <;> rfl
  | initFrag g =>
    simp [stepFrame] at h; subst h
    split at hf'
    · simp at hf'
    · split at hf' <;> simp at hf' <;> subst hf' <;> rfl
  | sign g =>
    simp only [stepFrame] at h
    split at h
    · cases h
    · simp at h; subst h; simp at hf'; subst hf'; rfl
  | fragGen g =>
    simp only [stepFrame] at h
    split at h
    · cases h
    · simp at h; subst h; simp at hf'; subst hf'; rfl
  | initMal g => simp [stepFrame] at h; subst h; split at hf' <;> simp at hf' <;> subst hf' <;> rfl
  | handle g => simp [stepFrame] at h; subst h; split at hf' <;> simp at hf'; subst hf'; rfl
  | initFull g => simp [stepFrame] at h; subst h; split at hf' <;> simp at hf'; subst hf'; rfl
  | signBlk g => simp [stepFrame] at h; subst h; split at hf' <;> simp at hf'; subst hf'; rfl
  | conCount g => simp [stepFrame] at h; subst h; split at hf' <;> simp at hf'; subst hf'; rfl
  | fragFull g => simp [stepFrame] at h; subst h; split at hf' <;> simp at hf'; subst hf'; rfl
  | fullBlk g => simp [stepFrame] at h; subst h; split at hf' <;> simp at hf'; subst hf'; rfl
  | fullCount g => simp [stepFrame] at h; subst h; split at hf' <;> simp at hf' <;> subst hf' <;> rfl
  | recon g => simp [stepFrame] at h; subst h; simp at hf'; subst hf'; rfl
  | initCon g => simp [stepFrame] at h; subst h; simp at hf'; subst hf'; rfl
  | storeBl g => simp [stepFrame] at h; subst h; simp at hf'; subst hf'; rfl
  | _ => simp [stepFrame] at h; subst h; simp at hf'

/-- Bytes of the requests waiting for their first step. -/
def pendingBytes (c : CState) : Int := (c.threads.map fun t => (t.frames.map Frame.bytes).sum).sum

/-- Received bytes so far, and only the top frame of a goroutine still has bytes to count. -/
structure BytesInv (n0 : Int) (c : CState) : Prop where
  total : c.g.crashed = false → c.g.trafficReceived + pendingBytes c = n0
  tops : ∀ t ∈ c.threads, ∀ f ∈ t.frames.tail, f.bytes = 0

theorem BytesInv.step (cf : GConf L) {n0 : Int} {c : CState} (H : BytesInv n0 c) (e : Clock × CEvent) :
    BytesInv (n0 + bytesArrived [e]) (cstep cf c e) := by
  obtain ⟨clk, ev⟩ := e
  have spawn : ∀ (fs : List Frame) (b : Bool) (n : Int), (fs.map Frame.bytes).sum = n → (∀ f ∈ fs.tail, f.bytes = 0) →
      ∀ g : GState, g.crashed = c.g.crashed → g.trafficReceived = c.g.trafficReceived →
      BytesInv (n0 + n) ⟨g, c.threads ++ [⟨fs, b⟩]⟩ := by
    intro fs b n h1 h2 g hg hg'
    refine ⟨?_, ?_⟩
    · intro hcr
      have := H.total (by rw [← hg]; exact hcr)
      simp only [pendingBytes, List.map_append, List.map_cons, List.map_nil, List.sum_append, List.sum_cons, List.sum_nil, h1] at this ⊢
      rw [hg']
      omega
    · intro t ht
      rcases List.mem_append.1 ht with ht | ht
      · exact H.tops t ht
      · simp at ht; subst ht; exact h2
  have idle : ∀ c' : CState, c' = c → bytesArrived [(clk, ev)] = 0 → BytesInv (n0 + bytesArrived [(clk, ev)]) c' := by
    intro c' h h0; rw [h, h0, Int.add_zero]; exact H
  by_cases hcr : c.g.crashed = true
  · have : cstep cf c (clk, ev) = c := by unfold cstep; rw [if_pos hcr]
    rw [this]
    exact ⟨fun h => by simp [hcr] at h, H.tops⟩
  · cases ev with
    | recv n o =>
      unfold cstep; rw [if_neg hcr]
      exact spawn _ _ _ (by simp [bytesArrived, Frame.bytes]) (by simp) _ rfl rfl
    | notify n o =>
      unfold cstep; rw [if_neg hcr]
      exact spawn _ _ _ (by simp [bytesArrived, Frame.bytes]) (by simp) _ rfl rfl
    | request n o =>
      unfold cstep; rw [if_neg hcr]
      exact spawn _ _ _ (by simp [bytesArrived, Frame.bytes]) (by simp) _ rfl rfl
    | periodic =>
      unfold cstep; rw [if_neg hcr]
      exact spawn _ _ _ (by simp [bytesArrived, Frame.bytes]) (by simp [Frame.bytes]) _ rfl rfl
    | fire i =>
      unfold cstep; rw [if_neg hcr]
      simp only
      split
      · exact idle _ rfl (by simp [bytesArrived])
      · exact spawn _ _ _ (by simp [bytesArrived, Frame.bytes]) (by simp) _ rfl rfl
    | run i =>
      have h0 : bytesArrived [(clk, CEvent.run i)] = 0 := by simp [bytesArrived]
      rw [h0, Int.add_zero]
      cases ht : c.threads[i]? with
      | none =>
        unfold cstep; rw [if_neg hcr]; simp only [ht]; exact H
      | some t =>
        have htm : t ∈ c.threads := List.mem_of_getElem? ht
        cases hf : t.frames with
        | nil =>
          have : cstep cf c (clk, .run i) = ⟨c.g, c.threads.set i t⟩ := by
            unfold cstep; rw [if_neg hcr]; simp only [ht, stepThread, hf]
          rw [this]
          have e : c.threads.set i t = c.threads := by
            obtain ⟨hlt, hi⟩ := List.getElem?_eq_some_iff.1 ht
            rw [← hi, List.set_getElem_self]
          rw [e]
          exact H
        | cons f fs =>
          have hfs : ∀ f' ∈ fs, f'.bytes = 0 := fun f' hf' => H.tops t htm f' (by rw [hf]; exact hf')
          have hr := stepFrame_received cf clk c.g f
          have hold := H.total (by simpa using hcr)
          have hset : ∀ (g' : GState) (t' : Thread), (t'.frames.map Frame.bytes).sum = 0 →
              pendingBytes ⟨g', c.threads.set i t'⟩ + f.bytes = pendingBytes c := by
            intro g' t' h'
            have := isum_set (fun t : Thread => (t.frames.map Frame.bytes).sum) c.threads i t t' ht
            simp only [hf, List.map_cons, List.sum_cons, isum_zero hfs, h'] at this
            unfold pendingBytes
            dsimp only
            omega
          rw [cstep_run cf (by simpa using hcr) ht hf]
          rcases hst : stepFrame cf clk c.g f with ⟨s', new⟩
          rw [hst] at hr
          cases new with
          | some new =>
            have hnew : ∀ f' ∈ new ++ fs, f'.bytes = 0 := by
              intro f' hf'
              rcases List.mem_append.1 hf' with h1 | h1
              · exact new_bytes cf clk c.g f new (by rw [hst]) f' h1
              · exact hfs f' h1
            refine ⟨?_, ?_⟩
            · intro _
              have := hset s' { t with frames := new ++ fs } (isum_zero hnew)
              dsimp only at hr this ⊢
              omega
            · intro t' ht'
              rcases List.mem_or_eq_of_mem_set ht' with h1 | h1
              · exact H.tops t' h1
              · subst h1; exact fun f' hf' => hnew f' (List.mem_of_mem_tail hf')
          | none =>
            refine ⟨?_, ?_⟩
            · intro hc'
              have hb : t.fatal = false := by
                cases hfa : t.fatal with
                | false => rfl
                | true => dsimp only at hc'; rw [hfa] at hc'; simp at hc'
              have := hset s' { t with frames := [] } rfl
              simp only [hb, Bool.false_eq_true, if_false] at hr this ⊢
              omega
            · intro t' ht'
              rcases List.mem_or_eq_of_mem_set ht' with h1 | h1
              · exact H.tops t' h1
              · subst h1; simp

theorem bytesInv (cf : GConf L) (h : List (Clock × CEvent)) : BytesInv (bytesArrived h) (crun cf CState.init h) := by
  have key : ∀ (h : List (Clock × CEvent)) (c : CState) (n : Int), BytesInv n c →
      BytesInv (n + bytesArrived h) (crun cf c h) := by
    intro h
    induction h with
    | nil => intro c n hc; simpa [bytesArrived, crun] using hc
    | cons e t ih =>
      intro c n hc
      have := ih (cstep cf c e) _ (hc.step cf e)
      have e1 : n + bytesArrived [e] + bytesArrived t = n + bytesArrived (e :: t) := by
        simp only [bytesArrived, List.map_cons, List.map_nil, List.sum_cons, List.sum_nil]; omega
      rw [e1] at this
      exact this
  have := key h CState.init 0 ⟨fun _ => by simp [CState.init, GState.init, pendingBytes], by simp [CState.init]⟩
  simpa using this

/-- C33. Whatever the schedule, once every request has taken its first step the received counter is the sum of the
Content-Length values of the requests (decoded bodies), in whatever order they were handled. -/
theorem C33_received_exact (cf : GConf L) (h : List (Clock × CEvent)) (hcr : (crun cf CState.init h).g.crashed = false)
    (hn : NoneWaiting (crun cf CState.init h)) : (crun cf CState.init h).g.trafficReceived = bytesArrived h := by
  have H := (bytesInv cf h).total hcr
  have : pendingBytes (crun cf CState.init h) = 0 := by
    unfold pendingBytes
    refine isum_zero fun t ht => isum_zero fun f hf => ?_
    have := hn t ht f hf
    cases f <;> first | rfl | exact absurd this id
  omega

/-- Three fragments of 10 bytes each, in an alternating schedule. -/
example : (crun Ref.gconf CState.init Ref.fragSchedule).g.crashed = false ∧
    NoneWaiting (crun Ref.gconf CState.init Ref.fragSchedule) ∧
    (crun Ref.gconf CState.init Ref.fragSchedule).g.trafficReceived = 30 ∧
    (crun Ref.gconf CState.init Ref.fragSchedule).g.trafficSent = 400 := by
  refine ⟨by decide +kernel, ?_, by decide +kernel, by decide +kernel⟩
  have : ∀ t ∈ (crun Ref.gconf CState.init Ref.fragSchedule).threads, t.frames = [] := by decide +kernel
  intro t ht f hf
  rw [this t ht] at hf
  simp at hf

/-! ### C34 -/

/-- C34, what holds under every schedule: from a moment at which no goroutine is aggregating or wiping, until the next
wipe is started, a goroutine that has come to an aggregation does not panic there. Missing: aggregations overtaken by a
wipe, see `C34_violated_wipe_before_aggregation`. -/
theorem C34_aggregation_between_wipes_partial (cf : GConf L) (hb : cf.crypto.thresholdScheme = go!"bls") (c : CState)
    (hc : CReach cf c) (hcalm : ∀ k, Calm c k) (es : List (Clock × CEvent)) (hes : ∀ e ∈ es, e.2 ≠ .periodic)
    (t : Thread) (ht : t ∈ (crun cf c es).threads) (g : GossipObj) (fs : List Frame) (hf : t.frames = .fragGen g :: fs)
    (clk : Clock) : ∃ o, stepFrame cf clk (crun cf c es).g (.fragGen g) =
      ((crun cf c es).g.emit [.generatedFull g.getID o], some [.handle o]) := by
  have H := ((hcalm g.getID).inv hc true).run (fun _ => hb) es hes
  have hp : 0 < genPending g.getID (crun cf c es) := by
    have h1 := genPending_le g.getID ht
    have h2 : 0 < t.frames.countP (Frame.isGen g.getID) := by
      rw [hf, List.countP_pos_iff]; exact ⟨.fragGen g, by simp, by simp [Frame.isGen]⟩
    omega
  obtain ⟨h1, h2⟩ := H.live rfl hp
  have h3 : cf.crypto.threshold ≤ (((crun cf c es).g.storage.fragList g.type g.getID).length : Int) := by
    have e : g.getID.type = g.type := rfl
    unfold credit at h1
    rw [e] at h1
    split at h1
    · assumption
    · cases h1
  obtain ⟨o, ho⟩ := generateFULL_some cf clk hb ((crun cf c es).g.storage.fragList g.type g.getID) g.getTargetType h2 h3
  refine ⟨o, ?_⟩
  simp only [stepFrame, getObjectList, ho]

/-- In the three-fragment schedule, stopped at the right moment, a goroutine is at its aggregation. -/
example : (∀ k, Calm CState.init k) ∧ Ref.gconf.crypto.thresholdScheme = go!"bls" ∧
    ∃ t ∈ (crun Ref.gconf CState.init (Ref.fragSchedule.take 21)).threads,
      t.frames.head? = some (.fragGen (Ref.frag (go!"G2"))) :=
  ⟨by intro k t ht; simp [CState.init] at ht, rfl, by decide +kernel⟩

/-- C34, sequential: if handling a fragment panics, it is not the aggregation: a FULL object was generated and it is the
library's verification of that object that panicked. For every state. -/
theorem C34_sequential_aggregation (cf : GConf L) (hb : cf.crypto.thresholdScheme = go!"bls") (clk : Clock) (s : GState)
    (g : GossipObj) (ht : g.type.isFrag = true) (hp : (handle cf clk s g).2 = true) :
    ∃ o, .generatedFull g.getID o ∈ (handle cf clk s g).1.out ∧ o.verify cf.crypto = .panic := by
  generalize hr : handle cf clk s g = r at hp ⊢
  rw [handle_frag cf clk ht] at hr
  split at hr
  · subst hr; cases hp
  · split at hr
    · subst hr; cases hp
    · unfold handleFrag at hr
      split at hr
      · subst hr; cases hp
      · rw [readAndStore_frag cf ht] at hr
        by_cases hl : ((s.storage.fragList g.type g.getID).length : Int) < cf.crypto.threshold
        · rw [if_pos hl] at hr
          by_cases hc : ((s.storage.fragList g.type g.getID).length : Int) = cf.crypto.threshold - 1
          · obtain ⟨o, ho⟩ := generateFULL_some cf clk hb (s.storage.fragList g.type g.getID ++ [g]) g.getTargetType
              (by simp) (by rw [List.length_append, List.length_singleton]; omega)
            have hot : o.type.isFull = true := by rw [generateFULL_type ho]; exact getTargetType_isFull ht
            simp only [hc, if_true, getObjectList, Storage.fragList_appendFrag_same _ _ _ _ ht, ho] at hr
            generalize hs1 : ({ s with storage := s.storage.appendFrag g.type g.getID g } : GState).emit
              [.generatedFull g.getID o] = s1 at hr
            have hm : .generatedFull g.getID o ∈ s1.out := by rw [← hs1]; simp [GState.emit]
            have hh := handle_full cf clk hot s1
            rcases hq : handle cf clk s1 o with ⟨s2, b⟩
            rw [hq] at hr hh
            cases b with
            | false =>
              exfalso
              simp only at hr
              split at hr <;> (subst hr; cases hp)
            | true =>
              simp only at hr
              subst hr
              refine ⟨o, ?_⟩
              split at hh
              · cases hh
              · split at hh
                · cases hh
                · unfold handleFull at hh
                  split at hh
                  · cases hh
                  · split at hh
                    · unfold storeGossipObject at hh
                      cases hv : o.verify cf.crypto with
                      | panic => rw [hv] at hh; simp only at hh; cases hh; exact ⟨hm, rfl⟩
                      | err e => rw [hv] at hh; simp only at hh; cases hh
                      | ok =>
                        rw [hv] at hh
                        simp only at hh
                        split at hh
                        · rename_i h; split at h <;> cases h
                        · cases hh
                    · cases hh
          · simp only [hc, if_false, hl, if_true] at hr
            subst hr; cases hp
        · have hne : ¬ (((s.storage.fragList g.type g.getID).length : Int) = cf.crypto.threshold - 1) := by omega
          rw [if_neg hl] at hr
          simp only [hne, hl, if_false] at hr
          subst hr; cases hp

/-- The gossiper G1 holds a fragment of G2 and the STH; its own timer has expired and the goroutine is about to aggregate
when the periodic task runs. -/
def Ref.wipeCrash : List (Clock × CEvent) :=
  [(Ref.clk, .recv 10 Ref.sth)] ++ runs Ref.clk 0 20 ++ [(Ref.clk, .recv 10 (Ref.frag (go!"G2")))] ++ runs Ref.clk 1 20 ++
  [(Ref.clk, .fire 0)] ++ runs Ref.clk 2 6 ++ [(Ref.clk, .periodic)] ++ runs Ref.clk 3 2

/-- C34 violated: when the wipe overtakes a timer goroutine that is about to aggregate, the aggregation panics and ends
the process. -/
theorem C34_violated_wipe_before_aggregation :
    (crun Ref.gconf CState.init Ref.wipeCrash).g.crashed = false ∧
    (crun Ref.gconf CState.init (Ref.wipeCrash ++ runs Ref.clk 2 1)).g.crashed = true := by decide +kernel

end CTng
