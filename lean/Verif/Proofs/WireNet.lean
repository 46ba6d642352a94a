import Verif.Model.WireNet
import Verif.Proofs.WireGossiper
import Verif.Proofs.NetworkStep
/- The network that exchanges bytes and the network that exchanges objects do the same. -/
set_option autoImplicit false

namespace CTng
namespace Wire
open Json

/-- A gossiper whose identifier is text and whose byte counts are those of its JSON texts. -/
structure NodeText {L : Lib} (cf : GConf L) : Prop where
  self : Utf8 cf.crypto.selfID
  objLen : ∀ o, cf.jsonLen o = (bodyText (.obj o)).length
  notifLen : ∀ n, cf.notifLen n = (bodyText (.notif n)).length

/-- A message a gossiper sends. -/
def MsgOk (m : Msg) : Prop := (Out.peer m.dst m.route m.body).Has ObjOk NotifOk

theorem dNotif_ok {n : Notification} (h : NotifOk n) : dNotif notifZero (clean (notifJson n)) = (n, true) := by
  rw [dNotif_read, cleanNotif_eq h]

theorem decode_objText {o : GossipObj} (h : ObjOk o) : decode .zero dGossip (bodyText (.obj o)) = (o, true) := by
  rw [bodyText, decode_render _ _ _ (numOk_gossip o), dGossip_ok h]

theorem decode_notifText {n : Notification} (h : NotifOk n) : decode notifZero dNotif (bodyText (.notif n)) = (n, true) := by
  rw [bodyText, decode_render _ _ _ (numOk_notif n), dNotif_ok h]

theorem endpoint_not_control (t : GType) : endpointOf t ≠ go!"/gossip/new_payload_request" ∧
    endpointOf t ≠ go!"/gossip/new_payload_notification" := by
  cases t <;> exact ⟨by simp [endpointOf], by simp [endpointOf]⟩

theorem objRoute_not_control {r : Str} {t : GType} (h : r = endpointOf t ∨ r = go!"/gossip/rev_init") :
    r ≠ go!"/gossip/new_payload_request" ∧ r ≠ go!"/gossip/new_payload_notification" := by
  rcases h with rfl | rfl
  · exact endpoint_not_control t
  · exact ⟨by decide, by decide⟩

theorem control_not_obj : (go!"/gossip/new_payload_request") ∉ objRoutes ∧ (go!"/gossip/new_payload_notification") ∉ objRoutes :=
  ⟨by decide, by decide⟩

theorem control_ne : (go!"/gossip/new_payload_notification") ≠ go!"/gossip/new_payload_request" := by decide

/-- A message arrives as what it was sent as. -/
theorem requestEvent_packet {L : Lib} {cf : GConf L} (hc : NodeText cf) {m : Msg} (hm : MsgOk m) :
    requestEvent m.route (bodyText m.body).length (bodyText m.body) = routeEvent cf m := by
  obtain ⟨dst, route, body⟩ := m
  cases body with
  | obj o =>
    obtain ⟨ho, hr⟩ := hm
    have hn := objRoute_not_control hr
    simp only [requestEvent, routeEvent]
    rw [decode_objText ho, hc.objLen]
    simp only [hn.1, hn.2, if_false, if_true]
  | notif n =>
    obtain ⟨ho, hr⟩ := hm
    simp only [requestEvent, routeEvent]
    rw [decode_notifText ho, hc.notifLen]
    rcases hr with rfl | rfl
    · rw [if_neg control_not_obj.2, if_neg control_ne]; simp only [if_true]
    · rw [if_neg control_not_obj.1]
      simp only [if_neg (Ne.symm control_ne), if_true]

theorem requestEvent_has (route : Str) (len : Int) (body : Str) (e : CEvent) (h : requestEvent route len body = some e) :
    e.Has ObjOk NotifOk := by
  unfold requestEvent at h
  split at h
  · split at h
    · cases h; exact decode_gossip_ok body
    · cases h
  · split at h
    · split at h
      · cases h; exact decode_notif_ok body
      · cases h
    · split at h
      · split at h
        · cases h; exact decode_notif_ok body
        · cases h
      · cases h

/-- The same event with objects instead of bytes; `none` for a request that is answered with an error. -/
def BEvent.read : BEvent → Option NEvent
  | .post x clk route len body => (requestEvent route len body).map fun e => .node x (clk, e)
  | .node x clk e => some (.node x (clk, e.event))
  | .deliver i clk => some (.deliver i clk)

variable {L : Lib}

structure Rel (N : NetConf L.withJson) (b : BNet) (s : Net) : Prop where
  node : b.node = s.node
  flight : b.flight = s.flight.map packet
  has : ∀ x ∈ N.ids, CHas ObjOk NotifOk (fun _ => False) (s.node x)
  msgs : ∀ m ∈ s.flight, MsgOk m

theorem mem_postsOf {out : List Out} {m : Msg} (h : m ∈ postsOf out) : Out.peer m.dst m.route m.body ∈ out := by
  unfold postsOf at h
  obtain ⟨o, ho, he⟩ := List.mem_filterMap.1 h
  cases o <;> simp at he
  subst he; exact ho

theorem Rel.nodeStep {N : NetConf L.withJson} {b : BNet} {s : Net} (h : Rel N b s) (hN : ∀ x ∈ N.ids, NodeText (N.conf x))
    (hser : ∀ s, Safe (L.blsSerHex s)) (x : Str) (e : Clock × CEvent) (hk : ClockOk e.1) (he : e.2.Has ObjOk NotifOk) :
    Rel N (bnodeStep N b x e) (nodeStep N s x e) := by
  unfold bnodeStep CTng.nodeStep
  by_cases hx : x ∈ N.ids
  · rw [if_pos hx, if_pos hx]
    have hc := (h.has x hx).cstep (N.conf x) (objClosed (N.conf x) (hN x hx).self hser) hk he
    refine ⟨?_, ?_, ?_, ?_⟩
    · simp only [h.node]
    · simp only [h.node, h.flight, List.map_append]
    · intro y hy
      show CHas _ _ _ (if y = x then _ else _)
      split
      · exact hc
      · exact h.has y hy
    · intro m hm
      rcases List.mem_append.1 hm with hm | hm
      · exact h.msgs m hm
      · exact (hc.state.out _ (List.mem_of_mem_drop (mem_postsOf hm))).resolve_left id
  · rw [if_neg hx, if_neg hx]; exact h

theorem map_eraseIdx {α β : Type} (f : α → β) (l : List α) (i : Nat) : (l.map f).eraseIdx i = (l.eraseIdx i).map f := by
  induction l generalizing i with
  | nil => rfl
  | cons a t ih => cases i <;> simp [ih]

theorem Rel.step {N : NetConf L.withJson} {b : BNet} {s : Net} (h : Rel N b s) (hN : ∀ x ∈ N.ids, NodeText (N.conf x))
    (hser : ∀ s, Safe (L.blsSerHex s)) (e : BEvent) (hk : ClockOk e.clock) :
    Rel N (bstep N b e) (match e.read with | none => s | some e' => nstep N s e') := by
  cases e with
  | post x clk route len body =>
    simp only [bstep, brequest, BEvent.read]
    cases hr : requestEvent route len body with
    | none => exact h
    | some ev => exact h.nodeStep hN hser x (clk, ev) hk (requestEvent_has _ _ _ _ hr)
  | node x clk e =>
    simp only [bstep, BEvent.read, nstep]
    exact h.nodeStep hN hser x _ hk (by cases e <;> trivial)
  | deliver i clk =>
    simp only [bstep, BEvent.read, nstep]
    have hf : b.flight[i]? = s.flight[i]?.map packet := by rw [h.flight, List.getElem?_map]
    cases hm : s.flight[i]? with
    | none => rw [hf, hm]; exact h
    | some m =>
      rw [hf, hm]
      simp only [Option.map_some]
      have hok := h.msgs m (List.mem_of_getElem? hm)
      by_cases hd : m.dst ∈ N.ids
      · rw [if_pos hd, if_pos (show (packet m).dst ∈ N.ids from hd)]
        have h' : Rel N { b with flight := b.flight.eraseIdx i } { s with flight := s.flight.eraseIdx i } :=
          ⟨h.node, by simp only [h.flight, map_eraseIdx], h.has, fun m hm => h.msgs m (List.mem_of_mem_eraseIdx hm)⟩
        unfold brequest
        have hev := requestEvent_packet (hN m.dst hd) hok
        have hhas := requestEvent_has m.route (bodyText m.body).length (bodyText m.body)
        have e1 : requestEvent (packet m).route ((packet m).body.length : Int) (packet m).body = routeEvent (N.conf m.dst) m := hev
        rw [e1]
        rw [hev] at hhas
        cases hr : routeEvent (N.conf m.dst) m with
        | none => exact h'
        | some ev => exact h'.nodeStep hN hser m.dst (clk, ev) hk (hhas ev hr)
      · rw [if_neg hd, if_neg (show ¬ (packet m).dst ∈ N.ids from hd)]; exact h

theorem rel_init (N : NetConf L.withJson) : Rel N .init .init :=
  ⟨rfl, rfl, fun _ _ => CHas.init, fun _ h => by cases h⟩

/-- Over any history. -/
theorem rel_run (N : NetConf L.withJson) (hN : ∀ x ∈ N.ids, NodeText (N.conf x)) (hser : ∀ s, Safe (L.blsSerHex s))
    (h : List BEvent) (hk : ∀ e ∈ h, ClockOk e.clock) :
    Rel N (brun N .init h) (nrun N .init (h.filterMap BEvent.read)) := by
  have key : ∀ (l : List BEvent) (b : BNet) (s : Net), Rel N b s → (∀ e ∈ l, ClockOk e.clock) →
      Rel N (brun N b l) (nrun N s (l.filterMap BEvent.read)) := by
    intro l
    induction l with
    | nil => intro b s hr _; exact hr
    | cons e t ih =>
      intro b s hr hl
      have hs := hr.step hN hser e (hl e (by simp))
      have := ih (bstep N b e) _ hs fun x hx => hl x (by simp [hx])
      cases he : e.read with
      | none => rw [he] at this; simpa [brun, List.filterMap_cons, he] using this
      | some e' => rw [he] at this; simpa [brun, nrun, List.filterMap_cons, he] using this
  exact key h _ _ (rel_init N) hk

end Wire
end CTng
