import Verif.Proofs.NetworkSerial
import Verif.Props.GossiperSeq2
import Verif.Props.NetworkThreshold
import Verif.Props.NetworkSplit
/- C106: how often a gossiper forwards the tree head of one entity and period. -/
set_option autoImplicit false

namespace CTng
variable {L : Lib}

/-! ### Specification -/

/-- The objects with identity `k` posted to the owner, in order. -/
def ownerPosts (k : GossipID) (out : List Out) : List GossipObj :=
  out.filterMap fun
    | .owner o => if o.getID = k then some o else none
    | _ => none

/-- The objects with identity `k` posted to other gossipers, in order, with the destination. -/
def peerPosts (k : GossipID) (out : List Out) : List (Str × GossipObj) :=
  out.filterMap fun
    | .peer u _ (.obj o) => if o.getID = k then some (u, o) else none
    | _ => none

/-- No two neighbours have the same Signer field. -/
def SignersAlternate (l : List GossipObj) : Prop :=
  ∀ i a b, l[i]? = some a → l[i + 1]? = some b → a.signer ≠ b.signer

/-! ### Lemmas -/

theorem ownerPosts_append (k : GossipID) (a b : List Out) : ownerPosts k (a ++ b) = ownerPosts k a ++ ownerPosts k b := by
  simp [ownerPosts]

theorem peerPosts_append (k : GossipID) (a b : List Out) : peerPosts k (a ++ b) = peerPosts k a ++ peerPosts k b := by
  simp [peerPosts]

/-- What has been forwarded since `out0`, and what is held. -/
structure Fresh (cf : GConf L) (k : GossipID) (out0 : List Out) (s : GState) : Prop where
  post : ∃ new, s.out = out0 ++ new ∧ s.storage.sthInit.get k = (ownerPosts k new).getLast? ∧ SignersAlternate (ownerPosts k new) ∧
    peerPosts k new = (ownerPosts k new).flatMap fun o => cf.connected.map fun u => (u, o)
  rev : ∀ k' o, s.storage.revPayload.get k' = some o → o.type = .REV_INIT

theorem Fresh.ext {cf : GConf L} {k : GossipID} {out0 : List Out} {s s' : GState} (h : Fresh cf k out0 s) (d : List Out)
    (ho : s'.out = s.out ++ d) (h1 : ownerPosts k d = []) (h2 : peerPosts k d = [])
    (hg : s'.storage.sthInit.get k = s.storage.sthInit.get k) (hr : s'.storage.revPayload = s.storage.revPayload) :
    Fresh cf k out0 s' := by
  obtain ⟨⟨new, a, b, c, e⟩, f⟩ := h
  refine ⟨⟨new ++ d, by rw [ho, a, List.append_assoc], ?_, ?_, ?_⟩, by rw [hr]; exact f⟩
  · rw [hg, b, ownerPosts_append, h1, List.append_nil]
  · rw [ownerPosts_append, h1, List.append_nil]; exact c
  · rw [ownerPosts_append, peerPosts_append, h1, h2, List.append_nil, List.append_nil]; exact e

theorem ownerPosts_other {k : GossipID} {d : List Out} (h : ∀ o, .owner o ∈ d → o.getID ≠ k) : ownerPosts k d = [] := by
  unfold ownerPosts
  rw [List.filterMap_eq_nil_iff]
  intro x hx
  cases x with
  | owner o => simp [h o hx]
  | _ => rfl

theorem peerPosts_other {k : GossipID} {d : List Out} (h : ∀ u r o, .peer u r (.obj o) ∈ d → o.getID ≠ k) : peerPosts k d = [] := by
  unfold peerPosts
  rw [List.filterMap_eq_nil_iff]
  intro x hx
  cases x with
  | peer u r b =>
    cases b with
    | obj o => simp [h u r o hx]
    | notif n => rfl
  | _ => rfl

theorem sendToGossipers_peers (cf : GConf L) (s : GState) (g : GossipObj) :
    ∃ d, (sendToGossipers cf s g).out = s.out ++ d ∧ (∀ o, .owner o ∉ d) ∧ ∀ u r o, .peer u r (.obj o) ∈ d → o.type = g.type ∧
      (g.type ≠ .REV_FRAG → o = g) := by
  unfold sendToGossipers
  simp only
  split
  · exact ⟨_, rfl, by simp, by simp⟩
  · refine ⟨_, rfl, by simp, ?_⟩
    intro u r o h
    obtain ⟨v, _, hv⟩ := List.mem_map.1 h
    cases hv
    split
    · rename_i hc; exact ⟨rfl, fun hne => absurd hc.2 hne⟩
    · exact ⟨rfl, fun _ => rfl⟩

section
variable (cf : GConf L)
@[simp] theorem sth_storedState_other (clk : Clock) (s : GState) (g : GossipObj) (h : g.type ≠ .STH_INIT) :
    (storedState cf clk s g).storage.sthInit = s.storage.sthInit := by
  rw [storage_storedState]
  have := Storage.objs_putObj_ne s.storage g.getID g (t := g.type) (t' := .STH_INIT) (fun e => h e.symm)
  exact this

@[simp] theorem rev_storedState (clk : Clock) (s : GState) (g : GossipObj) :
    (storedState cf clk s g).storage.revPayload = s.storage.revPayload := by
  rw [storage_storedState]
  unfold Storage.putObj
  split <;> rfl
end

theorem ne_of_type {o : GossipObj} {k : GossipID} (hk : k.type = .STH_INIT) (h : o.type ≠ .STH_INIT) : o.getID ≠ k := by
  rintro rfl; exact h hk

theorem Fresh.peers {cf : GConf L} {k : GossipID} {out0 : List Out} {s : GState} (hk : k.type = .STH_INIT)
    (h : Fresh cf k out0 s) (g : GossipObj) (hg : g.type ≠ .STH_INIT) : Fresh cf k out0 (sendToGossipers cf s g) := by
  obtain ⟨d, hd, h1, h2⟩ := sendToGossipers_peers cf s g
  refine h.ext d hd (ownerPosts_other fun o ho => absurd ho (h1 o)) (peerPosts_other fun u r o ho => ne_of_type hk ?_) (by simp) (by simp)
  rw [(h2 u r o ho).1]; exact hg

theorem Fresh.owner {cf : GConf L} {k : GossipID} {out0 : List Out} {s : GState} (hk : k.type = .STH_INIT)
    (h : Fresh cf k out0 s) (g : GossipObj) (hg : g.type ≠ .STH_INIT) : Fresh cf k out0 (sendToMonitor s g) := by
  refine h.ext [.owner g] rfl (ownerPosts_other fun o ho => ?_) (peerPosts_other (by simp)) rfl rfl
  simp at ho; subst ho; exact ne_of_type hk hg

theorem SignersAlternate.snoc {l : List GossipObj} {g : GossipObj} (h : SignersAlternate l)
    (hl : ∀ a, l.getLast? = some a → a.signer ≠ g.signer) : SignersAlternate (l ++ [g]) := by
  intro i a b ha hb
  rw [List.getElem?_append] at ha hb
  split at hb
  · rw [if_pos (by omega)] at ha; exact h i a b ha hb
  · rename_i hi
    have hi' : i + 1 = l.length := by
      have : i + 1 - l.length < [g].length := (List.getElem?_eq_some_iff.1 hb).1
      simp at this; omega
    rw [hi', Nat.sub_self] at hb
    simp at hb; subst hb
    rw [if_pos (by omega)] at ha
    exact hl a (by rw [List.getLast?_eq_getElem?, ← hi', Nat.add_sub_cancel]; exact ha)

theorem fresh_closed (cf : GConf L) (k : GossipID) (hk : k.type = .STH_INIT) (out0 : List Out) : Closed cf (Fresh cf k out0) where
  init := by
    intro clk s g hs ht hv hd hb hm
    by_cases hg : g.type = .STH_INIT
    · have hnf : g.type ≠ .REV_FRAG := by rw [hg]; simp
      have hout := broadcast_out cf (storedState cf clk s g) g hnf
      rw [out_storedState] at hout
      have hst : (sendToMonitor (sendToGossipers cf (storedState cf clk s g) g) g).storage.sthInit = s.storage.sthInit.set g.getID g := by
        simp [Storage.putObj, hg]
      have hann : cf.connected.map (Announce cf g) = cf.connected.map fun u => .peer u (endpointOf g.type) (.obj g) := by
        apply List.map_congr_left
        intro u _
        rw [Announce, if_neg (by rw [hg]; simp)]
      by_cases hid : g.getID = k
      · obtain ⟨⟨new, a, b, c, e⟩, f⟩ := hs
        have hop : ownerPosts k (Broadcast cf g) = [g] := by
          unfold Broadcast
          rw [ownerPosts_append, ownerPosts_other (by rw [hann]; simp)]
          simp [ownerPosts, hid]
        have hpp : peerPosts k (Broadcast cf g) = cf.connected.map fun u => (u, g) := by
          unfold Broadcast
          rw [peerPosts_append, hann]
          have : peerPosts k [.owner g] = [] := rfl
          rw [this, List.append_nil]
          generalize cf.connected = l
          induction l with
          | nil => rfl
          | cons u l ih =>
            simp only [List.map_cons]
            rw [← ih]
            simp [peerPosts, hid]
        refine ⟨⟨new ++ Broadcast cf g, ?_, ?_, ?_, ?_⟩, ?_⟩
        · exact hout.trans (by rw [a, List.append_assoc])
        · show (sendToMonitor (sendToGossipers cf (storedState cf clk s g) g) g).storage.sthInit.get k = _
          rw [hst, hid, GoMap.get_set_self, ownerPosts_append, hop]; simp
        · rw [ownerPosts_append, hop]
          refine c.snoc fun o ho => ?_
          rw [← b] at ho
          intro hsig
          have hne : ¬ (o.sig = g.sig) := by
            intro he
            have := (dupCheck_obj (s := s) (g := g) (by rw [hg]; rfl)).2 ⟨o, by rw [hg, hid]; exact ho, he⟩
            rw [hd] at this; cases this
          unfold isMalicious at hm
          rw [hg] at hm
          have hgo : getObject s g.getID .STH_INIT = o := by
            unfold getObject
            simp [hid, Storage.objs, ho]
          simp only [hgo] at hm
          rw [Bool.and_eq_false_iff] at hm
          rcases hm with hm | hm
          · simp [hsig] at hm
          · exact absurd (by simpa using hm : g.sig = o.sig).symm hne
        · rw [ownerPosts_append, peerPosts_append, hop, hpp, e]; simp
        · simpa using f
      · refine hs.ext (Broadcast cf g) hout (ownerPosts_other ?_) (peerPosts_other ?_) ?_ ?_
        · intro o ho
          unfold Broadcast at ho
          rw [hann] at ho
          simp at ho
          rw [ho]; exact hid
        · intro u r o ho
          unfold Broadcast at ho
          rw [hann] at ho
          simp at ho
          obtain ⟨_, _, _, _, rfl⟩ := ho; exact hid
        · show (sendToMonitor (sendToGossipers cf (storedState cf clk s g) g) g).storage.sthInit.get k = _
          rw [hst, GoMap.get_set_ne _ _ (fun e => hid e.symm)]
        · simp
    · have h1 : Fresh cf k out0 (storedState cf clk s g) := hs.ext [] (by simp) rfl rfl (by rw [sth_storedState_other cf clk s g hg]) (by simp)
      exact ((h1.peers hk g hg).owner hk g hg).ext [] (by simp) rfl rfl rfl rfl
  acc := by
    intro clk s g hs ht _ _ _
    exact hs.ext [] (by simp) rfl rfl (by rw [sth_storedState_other cf clk s g (by rw [ht]; simp)]) (by simp)
  con := by
    intro clk s g hs ht _ _ _ _
    have hg : g.type ≠ .STH_INIT := by rw [ht]; simp
    have h1 : Fresh cf k out0 (storedState cf clk s g) := hs.ext [] (by simp) rfl rfl (by rw [sth_storedState_other cf clk s g hg]) (by simp)
    exact (h1.peers hk g hg).owner hk g hg
  full := by
    intro clk s g hs ht _ _ _ _
    have hg : g.type ≠ .STH_INIT := by intro h; rw [h] at ht; cases ht
    have h1 : Fresh cf k out0 (storedState cf clk s g) := hs.ext [] (by simp) rfl rfl (by rw [sth_storedState_other cf clk s g hg]) (by simp)
    exact h1.owner hk g hg
  fullRefused := by
    intro s g hs ht _
    exact hs.owner hk g (by intro h; rw [h] at ht; cases ht)
  frag := by
    intro s g hs _ _ _ _
    refine hs.ext [] (by simp) rfl rfl ?_ ?_
    · have := Storage.objs_appendFrag s.storage g.type .STH_INIT g.getID g
      exact congrArg (fun m => m.get k) this
    · show (s.storage.appendFrag g.type g.getID g).revPayload = _
      unfold Storage.appendFrag
      split <;> rfl
  fragPeers := fun s g hs ht => hs.peers hk g (by intro h; rw [h] at ht; cases ht)
  signed := fun s g f hs _ _ _ => hs.ext [.signed f] rfl rfl rfl rfl rfl
  gen := fun clk s g o hs _ _ => hs.ext [.generatedFull g.getID o] rfl rfl rfl rfl rfl
  note := fun clk s hs => hs.ext [] (by simp) rfl rfl (by simp) (by simp)

theorem fresh_seqClosed (cf : GConf L) (k : GossipID) (hk : k.type = .STH_INIT) (out0 : List Out) :
    SeqClosed cf (Fresh cf k out0) where
  toHClosed := (fresh_closed cf k hk out0).hclosed cf
  received := fun s n hs => hs.ext [] (by simp) rfl rfl rfl rfl
  payload := by
    intro s g hs ht hv
    obtain ⟨a, b⟩ := hs
    refine ⟨a, ?_⟩
    intro k' o ho
    rw [GoMap.get_set] at ho
    split at ho
    · cases ho; exact ht
    · exact b k' o ho
  ask := by
    intro s n x hs
    unfold notificationHandler
    simp only
    split
    · exact hs.ext [.peer x.sender (go!"/gossip/new_payload_request") (.notif { x with sender := cf.crypto.selfID })] rfl rfl rfl rfl rfl
    · exact hs.ext [] (by simp) rfl rfl rfl rfl
  answer := by
    intro s n x hs
    unfold requestHandler
    simp only
    split
    · rename_i hne
      refine hs.ext [.peer x.sender (go!"/gossip/rev_init") (.obj (getREVrequested s ⟨x.period, x.type, x.entity⟩))] rfl rfl
        (peerPosts_other ?_) rfl rfl
      intro u r o ho
      simp at ho
      refine ne_of_type hk ?_
      rw [ho.2.2]
      cases hg : s.storage.revPayload.get ⟨x.period, .REV_INIT, x.entity⟩ with
      | none => simp [getREVrequested, hg, GossipObj.zero] at hne
      | some o' => simp [getREVrequested, hg, hs.rev _ _ hg]
    · exact hs.ext [] (by simp) rfl rfl rfl rfl
  disarm := fun s i hs => hs.ext [] (by simp) rfl rfl rfl rfl
  crash := fun s hs => hs.ext [] (by simp) rfl rfl rfl rfl

/-- What holds of C106: a gossiper that executes its requests one at a time and has nothing about a tree head yet forwards it, until
the next wipe, only when the Signer field differs from that of the version it forwarded last; each version forwarded to the monitor
is posted to every connected gossiper once, and nothing else about it is posted. Missing: versions with alternating Signer fields
(`C106_violated_endless`), and requests executed at the same time. -/
theorem C106_forwards_alternate_partial (cf : GConf L) (s : GState) (hs : GReach cf s) (k : GossipID) (hk : k.type = .STH_INIT)
    (hnone : ∀ o, ¬ HeldAs s.storage k o .STH_INIT) (h : List (Clock × GOp)) (hh : ∀ e ∈ h, e.2 ≠ .periodic) :
    ∃ new, (grun cf s h).out = s.out ++ new ∧ SignersAlternate (ownerPosts k new) ∧
      peerPosts k new = (ownerPosts k new).flatMap fun o => cf.connected.map fun u => (u, o) := by
  have hg : s.storage.sthInit.get k = none := by
    cases hg : s.storage.sthInit.get k with
    | none => rfl
    | some o => exact absurd (heldAs_iff.2 (show (s.storage.objs .STH_INIT).get k = some o from hg)) (hnone o)
  have h0 : Fresh cf k s.out s := by
    refine ⟨⟨[], by simp, hg, ?_, rfl⟩, ?_⟩
    · intro i a b ha; simp [ownerPosts] at ha
    · intro k' o ho
      have := (hs.storageInv cf).payload k' o ho
      exact this.2.1
  obtain ⟨⟨new, a, _, c, d⟩, _⟩ := (fresh_seqClosed cf k hk s.out).run cf hs h hh h0
  exact ⟨new, a, c, d⟩

/-- C106 for loggers that use one Signer field: the tree head is forwarded at most once, so each connected gossiper gets it once. -/
theorem C106_forwarded_once_partial (cf : GConf L) (s : GState) (hs : GReach cf s) (k : GossipID) (hk : k.type = .STH_INIT)
    (hnone : ∀ o, ¬ HeldAs s.storage k o .STH_INIT) (h : List (Clock × GOp)) (hh : ∀ e ∈ h, e.2 ≠ .periodic) (signer : Str)
    (hsg : ∀ o, .owner o ∈ (grun cf s h).out → o.getID = k → o.signer = signer) :
    ∃ new, (grun cf s h).out = s.out ++ new ∧ (ownerPosts k new).length ≤ 1 ∧ (peerPosts k new).length ≤ cf.connected.length := by
  obtain ⟨new, h1, h2, h3⟩ := C106_forwards_alternate_partial cf s hs k hk hnone h hh
  have hmem : ∀ o ∈ ownerPosts k new, o.signer = signer := by
    intro o ho
    unfold ownerPosts at ho
    obtain ⟨x, hx, he⟩ := List.mem_filterMap.1 ho
    cases x with
    | owner o' =>
      simp only at he
      split at he
      · rename_i hid
        cases he
        exact hsg o (by rw [h1]; exact List.mem_append_right _ hx) hid
      · cases he
    | _ => simp at he
  have hlen : (ownerPosts k new).length ≤ 1 := by
    rcases hl : ownerPosts k new with _ | ⟨a, _ | ⟨b, t⟩⟩
    · simp
    · simp
    · have := h2 0 a b (by rw [hl]; rfl) (by rw [hl]; rfl)
      rw [hmem a (by rw [hl]; simp), hmem b (by rw [hl]; simp)] at this
      exact absurd rfl this
  refine ⟨new, h1, hlen, ?_⟩
  rw [h3]
  rcases hl : ownerPosts k new with _ | ⟨a, _ | ⟨b, t⟩⟩
  · simp
  · simp
  · rw [hl] at hlen; simp at hlen

/-! ### Two versions that never come to rest -/

/-- A tree head with key `k` that both gossipers accept. -/
structure Ball (N : NetConf L) (k : GossipID) (x y : Str) (g : GossipObj) : Prop where
  id : g.getID = k
  okx : g.verify (N.conf x).crypto = .ok
  oky : g.verify (N.conf y).crypto = .ok
  signer : g.signer ≠ []

/-- Two gossipers connected to each other. -/
structure Pair (N : NetConf L) (x y : Str) : Prop where
  ne : x ≠ y
  memx : x ∈ N.ids
  memy : y ∈ N.ids
  connx : (N.conf x).connected = [y]
  conny : (N.conf y).connected = [x]
  thrx : 0 < (N.conf x).crypto.threshold
  thry : 0 < (N.conf y).crypto.threshold

theorem Pair.symm {N : NetConf L} {x y : Str} (h : Pair N x y) : Pair N y x :=
  ⟨h.ne.symm, h.memy, h.memx, h.conny, h.connx, h.thry, h.thrx⟩

theorem Ball.symm {N : NetConf L} {k : GossipID} {x y : Str} {g : GossipObj} (h : Ball N k x y g) : Ball N k y x g :=
  ⟨h.id, h.oky, h.okx, h.signer⟩

/-- What one gossiper holds for `k`, how often it has forwarded it, and that it still works. -/
structure Seat (k : GossipID) (v : Option GossipObj) (n : Nat) (g : GState) : Prop where
  slot : g.storage.sthInit.get k = v
  posts : (ownerPosts k g.out).length = n
  up : g.crashed = false
  black : g.blacklist.has k.entity = false

theorem recvState_crashed (cf : GConf L) (n : Int) (s : GState) (g : GossipObj) : (recvState cf n s g).crashed = s.crashed := by
  unfold recvState; split <;> rfl

theorem seat_bounce {cf : GConf L} {k : GossipID} (hk : k.type = .STH_INIT) (hT : 0 < cf.crypto.threshold) {s : GState} (hr : GReach cf s)
    {v : Option GossipObj} {m : Nat} (hs : Seat k v m s) {g : GossipObj} (hid : g.getID = k) (hv : g.verify cf.crypto = .ok)
    (hne : g.signer ≠ []) (hd : ∀ o, v = some o → o.signer ≠ g.signer ∧ o.sig ≠ g.sig) (clk : Clock) (n : Int) :
    Seat k (some g) (m + 1) (gstep cf s (clk, .recv n g)) ∧
    (gstep cf s (clk, .recv n g)).out = s.out ++ cf.connected.map (fun u => .peer u (go!"/gossip/sth_init") (.obj g)) ++ [.owner g] := by
  have hg : g.type = .STH_INIT := (congrArg GossipID.type hid).trans hk
  have hent : g.payload.p0 = k.entity := congrArg GossipID.entity hid
  have hst : (recvState cf n s g).storage.sthInit = s.storage.sthInit := recvState_objs cf n s g .STH_INIT
  have hdup : dupCheck (recvState cf n s g) g = false := by
    cases h : dupCheck (recvState cf n s g) g with
    | false => rfl
    | true =>
      obtain ⟨o, h1, h2⟩ := (dupCheck_obj (by rw [hg]; rfl)).1 h
      rw [recvState_objs, hg, hid] at h1
      exact absurd h2 (hd o (hs.slot.symm.trans h1)).2
  have hmal : isMalicious (recvState cf n s g) g = false := by
    unfold isMalicious
    rw [hg]
    simp only [getObject, hid, Storage.objs, hst, hs.slot]
    cases v with
    | none => simp [GossipObj.zero, hne]
    | some o => simp [Ne.symm (hd o rfl).1]
  have hstep : gstep cf s (clk, .recv n g) =
      { sendToMonitor (sendToGossipers cf (storedState cf clk (recvState cf n s g) g) g) g with timers := (recvState cf n s g).timers ++ [g] } := by
    unfold gstep
    rw [if_neg (by simp [hs.up])]
    simp only
    rw [recv_verified cf clk n s g (by rw [hg]; simp) hv,
      handle_init_new cf clk _ g (recvState_inv cf n s g (hr.storageInv cf) hv) hT (.inl hg) hv hdup (by rw [recvState_blacklist, hent]; exact hs.black) hmal]
  have hann : cf.connected.map (Announce cf g) = cf.connected.map fun u => .peer u (go!"/gossip/sth_init") (.obj g) := by
    apply List.map_congr_left
    intro u _
    rw [Announce, if_neg (by rw [hg]; simp), hg]; rfl
  have hout : (gstep cf s (clk, .recv n g)).out =
      s.out ++ cf.connected.map (fun u => .peer u (go!"/gossip/sth_init") (.obj g)) ++ [.owner g] := by
    rw [hstep]
    have := broadcast_out cf (storedState cf clk (recvState cf n s g) g) g (by rw [hg]; simp)
    rw [out_storedState, recvState_out, Broadcast, hann, ← List.append_assoc] at this
    exact this
  refine ⟨⟨?_, ?_, ?_, ?_⟩, hout⟩
  · rw [hstep]
    simp [Storage.putObj, hg, hid, GoMap.get_set_self]
  · rw [hout, ownerPosts_append, ownerPosts_append, List.length_append, List.length_append, hs.posts]
    rw [ownerPosts_other (d := cf.connected.map _) (by simp)]
    simp [ownerPosts, hid]
  · rw [hstep]
    show (sendToGossipers cf (storedState cf clk (recvState cf n s g) g) g).crashed = false
    rw [crashed_sendToGossipers, crashed_storedState, recvState_crashed]; exact hs.up
  · rw [hstep]
    have := blacklist_storedState cf clk (recvState cf n s g) g k.entity
    simp only [hg] at this
    simpa [hs.black] using this

/-- Both gossipers and the messages under way. -/
structure Rally (N : NetConf L) (k : GossipID) (x y : Str) (vx vy : Option GossipObj) (m n : Nat) (fl : List Msg) (s : SNet) : Prop where
  reach : SReach N s
  atx : Seat k vx m (s.node x)
  aty : Seat k vy n (s.node y)
  flight : s.flight = fl

theorem Rally.symm {N : NetConf L} {k : GossipID} {x y : Str} {vx vy : Option GossipObj} {m n : Nat} {fl : List Msg} {s : SNet}
    (h : Rally N k x y vx vy m n fl s) : Rally N k y x vy vx n m fl s := ⟨h.reach, h.aty, h.atx, h.flight⟩

/-- The request that carries a tree head to gossiper `u`. -/
def headTo (u : Str) (g : GossipObj) : Msg := ⟨u, go!"/gossip/sth_init", .obj g⟩

theorem SReach.step {N : NetConf L} {s : SNet} (h : SReach N s) (e : SEvent) : SReach N (sstep N s e) := by
  obtain ⟨es, rfl⟩ := h
  exact ⟨es ++ [e], by simp [srun, List.foldl_append]⟩

/-- Gossiper `x` receives a version other than the one it holds: it takes it and passes it on. -/
theorem rally_node {N : NetConf L} {k : GossipID} (hk : k.type = .STH_INIT) {x y : Str} (hP : Pair N x y) {vx vy : Option GossipObj}
    {m n : Nat} {fl : List Msg} {s : SNet} (hr : SReach N s) (hx : Seat k vx m (s.node x)) (hy : Seat k vy n (s.node y))
    {g : GossipObj} (hg : Ball N k x y g) (hd : ∀ o, vx = some o → o.signer ≠ g.signer ∧ o.sig ≠ g.sig) (clk : Clock) (j : Int)
    {s' : SNet} (hn : s'.node = s.node) (hf : s'.flight = fl) (hr' : SReach N (snodeStep N s' x (clk, .recv j g))) :
    Rally N k x y (some g) vy (m + 1) n (fl ++ [headTo y g]) (snodeStep N s' x (clk, .recv j g)) := by
  have hb := seat_bounce hk hP.thrx (hr.greach x) hx hg.id hg.okx hg.signer hd clk j
  refine ⟨hr', ?_, ?_, ?_⟩
  · rw [snodeStep_node N s' x _ hP.memx, if_pos rfl, hn]; exact hb.1
  · rw [snodeStep_node N s' x _ hP.memx, if_neg hP.ne.symm, hn]; exact hy
  · simp only [snodeStep, if_pos hP.memx]
    rw [hn, hb.2, hf, List.append_assoc, List.drop_left, hP.connx]
    rfl

theorem rally_deliver {N : NetConf L} {k : GossipID} (hk : k.type = .STH_INIT) {x y : Str} (hP : Pair N x y) {vx vy : Option GossipObj}
    {m n : Nat} {fl : List Msg} {s : SNet} {g : GossipObj} (h : Rally N k x y vx vy m n (headTo x g :: fl) s)
    (hg : Ball N k x y g) (hd : ∀ o, vx = some o → o.signer ≠ g.signer ∧ o.sig ≠ g.sig) (clk : Clock) :
    Rally N k x y (some g) vy (m + 1) n (fl ++ [headTo y g]) (sstep N s (.deliver 0 clk)) := by
  have he : sstep N s (.deliver 0 clk) =
      snodeStep N { s with flight := fl } x (clk, .recv ((N.conf x).jsonLen g) g) := by
    simp only [sstep, h.flight, List.getElem?_cons_zero, headTo, if_pos hP.memx, List.eraseIdx_cons_zero, routeOp]
    rw [if_pos (by simp [objRoutes])]
  have hr' := h.reach.step (.deliver 0 clk)
  rw [he] at hr' ⊢
  exact rally_node hk hP h.reach h.atx h.aty hg hd clk _ rfl rfl hr'

/-- Four deliveries. -/
def lap (clk : Clock) : List SEvent := [.deliver 0 clk, .deliver 0 clk, .deliver 0 clk, .deliver 0 clk]

theorem rally_lap {N : NetConf L} {k : GossipID} (hk : k.type = .STH_INIT) {x y : Str} (hP : Pair N x y) {a b : GossipObj}
    (ha : Ball N k x y a) (hb : Ball N k x y b) (hs : a.signer ≠ b.signer) (hg : a.sig ≠ b.sig) {m n : Nat} {s : SNet} (clk : Clock)
    (h : Rally N k x y (some a) (some b) m n [headTo y a, headTo x b] s) :
    Rally N k x y (some a) (some b) (m + 2) (n + 2) [headTo y a, headTo x b] (srun N s (lap clk)) := by
  have hab : ∀ o, some a = some o → o.signer ≠ b.signer ∧ o.sig ≠ b.sig := by rintro o ⟨⟩; exact ⟨hs, hg⟩
  have hba : ∀ o, some b = some o → o.signer ≠ a.signer ∧ o.sig ≠ a.sig := by rintro o ⟨⟩; exact ⟨hs.symm, hg.symm⟩
  have h1 := rally_deliver hk hP.symm h.symm ha.symm hba clk
  have h2 := rally_deliver hk hP h1.symm hb hab clk
  have h3 := rally_deliver hk hP h2 ha hba clk
  have h4 := rally_deliver hk hP.symm h3.symm hb.symm hab clk
  exact h4.symm

/-- C106 fails: in a pair of gossipers, two tree heads of one entity and period that verify and have different Signer fields, each
posted once to one of the gossipers, never come to rest. However many times messages are delivered, both gossipers hold the other's
version in turn and forward it again, to each other and to their monitors; two messages remain under way. -/
theorem C106_violated_endless (N : NetConf L) (x y : Str) (hP : Pair N x y) (k : GossipID) (hk : k.type = .STH_INIT)
    (a b : GossipObj) (ha : Ball N k x y a) (hb : Ball N k x y b) (hs : a.signer ≠ b.signer) (hg : a.sig ≠ b.sig) (clk : Clock) (n : Nat) :
    let s := srun N SNet.init ([.node x (clk, .recv 0 a), .node y (clk, .recv 0 b)] ++ List.replicate (4 * n) (.deliver 0 clk))
    (ownerPosts k (s.node x).out).length = 2 * n + 1 ∧ (ownerPosts k (s.node y).out).length = 2 * n + 1 ∧
    s.flight = [headTo y a, headTo x b] := by
  have hseat : ∀ z, Seat k none 0 (SNet.init.node z) := fun z => ⟨rfl, rfl, rfl, rfl⟩
  have h0 : SReach N SNet.init := ⟨[], rfl⟩
  have h1 := rally_node (s' := SNet.init) hk hP h0 (hseat x) (hseat y) ha (by simp) clk 0 rfl rfl (h0.step (.node x (clk, .recv 0 a)))
  have h2 := rally_node (s' := snodeStep N SNet.init x (clk, .recv 0 a)) hk hP.symm h1.reach h1.aty h1.atx hb.symm (by simp) clk 0 rfl
    h1.flight (h1.reach.step (.node y (clk, .recv 0 b)))
  have key : ∀ n s m, Rally N k x y (some a) (some b) m m [headTo y a, headTo x b] s →
      Rally N k x y (some a) (some b) (m + 2 * n) (m + 2 * n) [headTo y a, headTo x b] (srun N s (List.replicate (4 * n) (.deliver 0 clk))) := by
    intro n
    induction n with
    | zero => exact fun s m h => h
    | succ n ih =>
      intro s m h
      have := ih _ _ (rally_lap hk hP ha hb hs hg clk h)
      have e : List.replicate (4 * (n + 1)) (SEvent.deliver 0 clk) = lap clk ++ List.replicate (4 * n) (.deliver 0 clk) := by
        rw [show 4 * (n + 1) = 4 + 4 * n from by omega, ← List.replicate_append_replicate]; rfl
      rw [e, show m + 2 * (n + 1) = m + 2 + 2 * n from by omega]
      unfold srun at this ⊢
      rw [List.foldl_append]; exact this
  have h3 := key n _ 1 h2.symm
  have e : srun N SNet.init ([.node x (clk, .recv 0 a), .node y (clk, .recv 0 b)] ++ List.replicate (4 * n) (.deliver 0 clk)) =
      srun N (snodeStep N (snodeStep N SNet.init x (clk, .recv 0 a)) y (clk, .recv 0 b)) (List.replicate (4 * n) (.deliver 0 clk)) := by
    unfold srun; rw [List.foldl_append]; rfl
  simp only
  rw [e]
  exact ⟨by rw [h3.atx.posts]; omega, by rw [h3.aty.posts]; omega, h3.flight⟩

/-- Two gossipers that accept both versions. -/
example : Pair Ref.mesh (go!"G1") (go!"G2") ∧ Ball Ref.mesh Ref.sth.getID (go!"G1") (go!"G2") Ref.sth ∧
    Ball Ref.mesh Ref.sth.getID (go!"G1") (go!"G2") Ref.sthAlias ∧ Ref.sth.signer ≠ Ref.sthAlias.signer ∧ Ref.sth.sig ≠ Ref.sthAlias.sig :=
  ⟨⟨by decide, by decide, by decide, rfl, rfl, (by decide : (0 : Int) < 2), (by decide : (0 : Int) < 2)⟩,
    ⟨rfl, by decide +kernel, by decide +kernel, by decide⟩,
    ⟨by decide +kernel, by decide +kernel, by decide +kernel, by decide⟩, by decide +kernel, by decide +kernel⟩

/-- A gossiper that gets a tree head twice and another version under the same Signer field forwards one. -/
example : ∃ new, (grun Ref.gconf GState.init [(Ref.clk, .recv 10 Ref.sth), (Ref.clk, .recv 10 Ref.sth), (Ref.clk, .recv 10 Ref.sth')]).out =
    [] ++ new ∧ (ownerPosts Ref.sth.getID new).length ≤ 1 ∧ (peerPosts Ref.sth.getID new).length ≤ Ref.gconf.connected.length :=
  C106_forwarded_once_partial Ref.gconf GState.init (GReach.init _) Ref.sth.getID rfl (fun o h => by have := heldAs_iff.1 h; cases this) _
    (by decide) (go!"L1") (by
      intro o ho hid
      have hall : ∀ x ∈ (grun Ref.gconf GState.init [(Ref.clk, .recv 10 Ref.sth), (Ref.clk, .recv 10 Ref.sth),
          (Ref.clk, .recv 10 Ref.sth')]).out,
          (match x with | .owner o => decide (o.getID = Ref.sth.getID → o.signer = go!"L1") | _ => true) = true := by decide +kernel
      have := hall _ ho
      exact of_decide_eq_true this hid)

end CTng
