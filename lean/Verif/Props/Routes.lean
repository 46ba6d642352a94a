import Verif.Model.Routes
import Verif.Props.NetworkSplit
import Verif.Proofs.WireNet
import Verif.Props.Monitor
/- Requests and routers: C121. -/
set_option autoImplicit false

namespace CTng
open Wire
variable {L : Lib}

/-- A post with the handler that understands its body. -/
def PostOk (route : Str) (b : Body) : Prop :=
  match b with
  | .obj _ => arrives gossiperRoutes .post route = some .gossipObject
  | .notif _ => arrives gossiperRoutes .post route = some .gossipNotification ∨
      arrives gossiperRoutes .post route = some .gossipRequest

def OutOk : Out → Prop
  | .peer _ route b => PostOk route b
  | _ => True

/-- Types that travel between gossipers. -/
def Flows (t : GType) : Prop :=
  t = .STH_INIT ∨ t = .REV_INIT ∨ t = .ACC_INIT ∨ t = .CON_INIT ∨ t = .STH_FRAG ∨ t = .REV_FRAG ∨ t = .ACC_FRAG

theorem Flows.arrives {t : GType} (h : Flows t) : CTng.arrives gossiperRoutes .post (endpointOf t) = some .gossipObject := by
  rcases h with rfl | rfl | rfl | rfl | rfl | rfl | rfl <;> decide +kernel

def FrameOk : Frame → Prop
  | .sendPeers g => Flows g.type
  | .fragFull g => Flows g.type
  | .fragStore g => Flows g.type
  | _ => True

theorem stepFrame_ok (cf : GConf L) (clk : Clock) (s : GState) (f : Frame) (hf : FrameOk f) (h : ∀ o ∈ s.out, OutOk o) :
    (∀ o ∈ (stepFrame cf clk s f).1.out, OutOk o) ∧ ∀ l, (stepFrame cf clk s f).2 = some l → ∀ x ∈ l, FrameOk x := by
  constructor
  · obtain ⟨d, hd, he⟩ := stepFrame_out cf clk s f
    rw [he]
    intro o ho
    rcases List.mem_append.1 ho with ho | ho
    · exact h o ho
    · cases hd with
      | none => cases ho
      | signed => simp only [List.mem_singleton] at ho; subst ho; exact True.intro
      | full => simp only [List.mem_singleton] at ho; subst ho; exact True.intro
      | owner => simp only [List.mem_singleton] at ho; subst ho; exact True.intro
      | announce =>
        obtain ⟨u, _, rfl⟩ := List.mem_map.1 ho
        exact .inl (by decide +kernel)
      | forward =>
        obtain ⟨u, _, rfl⟩ := List.mem_map.1 ho
        exact Flows.arrives hf
      | ask =>
        simp only [List.mem_singleton] at ho
        subst ho
        exact .inr (by decide +kernel)
      | answer =>
        simp only [List.mem_singleton] at ho
        subst ho
        show arrives _ _ _ = _
        decide +kernel
  · have hafter : ∀ (g : GossipObj) (b : Bool), ∀ x ∈ afterStore g b, FrameOk x := by
      intro g b x hx
      unfold afterStore at hx
      cases ht : g.type <;> rw [ht] at hx <;> cases b <;> simp at hx <;>
        (try (rcases hx with rfl | rfl | rfl)) <;> (try (rcases hx with rfl | rfl)) <;> (try subst hx) <;>
        simp [FrameOk, Flows, ht]
    intro l hl x hx
    cases f with
    | recv n g => 
      simp only [stepFrame] at hl
      split at hl
      · cases hl
      · cases hl; simp only [List.mem_singleton] at hx; subst hx; exact True.intro
    | blk g =>
      simp only [stepFrame, Option.some.injEq] at hl
      subst hl
      split at hx
      · cases hx
      · split at hx <;> simp only [List.mem_singleton, List.not_mem_nil] at hx <;> subst hx <;>
          simp_all [FrameOk, Flows]
    | store g =>
      simp only [stepFrame] at hl
      split at hl
      · cases hl
      · cases hl; exact hafter _ _ _ hx
      · split at hl
        · cases hl; exact hafter _ _ _ hx
        · cases hl; simp only [List.mem_singleton] at hx; subst hx; exact True.intro
    | storeNote g => cases hl; exact hafter _ _ _ hx
    | fragFull g =>
      simp only [stepFrame, Option.some.injEq] at hl
      subst hl
      split at hx
      · cases hx
      · simp only [List.mem_singleton] at hx; subst hx; exact hf
    | fragStore g =>
      simp only [stepFrame, Option.some.injEq] at hl
      subst hl
      rcases List.mem_append.1 hx with hx | hx
      · split at hx
        · simp only [List.mem_singleton] at hx; subst hx; exact True.intro
        · cases hx
      · split at hx
        · simp only [List.mem_singleton] at hx; subst hx; exact hf
        · cases hx
    | initFrag g =>
      simp only [stepFrame, Option.some.injEq] at hl
      subst hl
      split at hx
      · cases hx
      · split at hx <;> simp only [List.mem_singleton] at hx <;> subst hx <;> exact True.intro
    | sign g =>
      simp only [stepFrame] at hl
      split at hl
      · cases hl
      · cases hl; simp only [List.mem_singleton] at hx; subst hx; exact True.intro
    | fragGen g =>
      simp only [stepFrame] at hl
      split at hl
      · cases hl
      · cases hl; simp only [List.mem_singleton] at hx; subst hx; exact True.intro
    | _ =>
      simp only [stepFrame, Option.some.injEq] at hl
      subst hl
      first
        | (simp only [List.mem_singleton] at hx; subst hx; exact True.intro)
        | exact absurd hx List.not_mem_nil
        | (split at hx <;>
            first
              | (simp only [List.mem_singleton] at hx; subst hx; exact True.intro)
              | exact absurd hx List.not_mem_nil)

/-- The invariant of one gossiper. -/
structure RouteInv (c : CState) : Prop where
  out : ∀ o ∈ c.g.out, OutOk o
  frames : ∀ t ∈ c.threads, ∀ f ∈ t.frames, FrameOk f

theorem RouteInv.init : RouteInv CState.init := ⟨fun _ h => absurd h List.not_mem_nil, fun _ h => absurd h List.not_mem_nil⟩

theorem RouteInv.step (cf : GConf L) {c : CState} (h : RouteInv c) (e : Clock × CEvent) : RouteInv (cstep cf c e) := by
  have start : ∀ (g : GState) (t : Thread), g.out = c.g.out → (∀ f ∈ t.frames, FrameOk f) →
      RouteInv ⟨g, c.threads ++ [t]⟩ := by
    intro g t hg ht
    refine ⟨by intro o ho; exact h.out o (by rw [← hg]; exact ho), ?_⟩
    intro t' h' f hf
    rcases List.mem_append.1 h' with h' | h'
    · exact h.frames t' h' f hf
    · simp only [List.mem_singleton] at h'; subst h'; exact ht f hf
  unfold cstep
  split
  · exact h
  · obtain ⟨clk, e⟩ := e
    cases e with
    | recv n o => exact start _ _ rfl (by intro f hf; simp only [List.mem_singleton] at hf; subst hf; exact True.intro)
    | notify n o => exact start _ _ rfl (by intro f hf; simp only [List.mem_singleton] at hf; subst hf; exact True.intro)
    | request n o => exact start _ _ rfl (by intro f hf; simp only [List.mem_singleton] at hf; subst hf; exact True.intro)
    | fire i =>
      simp only
      split
      · exact h
      · exact start _ _ rfl (by intro f hf; simp only [List.mem_singleton] at hf; subst hf; exact True.intro)
    | periodic =>
      exact start _ _ rfl (by
        intro f hf
        simp only [List.mem_cons, List.not_mem_nil, or_false] at hf
        rcases hf with rfl | rfl <;> exact True.intro)
    | run i =>
      simp only
      cases ht : c.threads[i]? with
      | none => exact h
      | some t =>
        have htm := List.mem_of_getElem? ht
        simp only [stepThread]
        cases hfs : t.frames with
        | nil =>
          simp only
          refine ⟨h.out, ?_⟩
          intro t' h' f hf
          rcases List.mem_or_eq_of_mem_set h' with h' | rfl
          · exact h.frames t' h' f hf
          · exact h.frames _ htm f hf
        | cons f0 fs =>
          have hfr := h.frames t htm
          rw [hfs] at hfr
          obtain ⟨h1, h2⟩ := stepFrame_ok cf clk c.g f0 (hfr f0 (by simp)) h.out
          simp only
          cases hs : stepFrame cf clk c.g f0 with
          | mk g o =>
            rw [hs] at h1 h2
            cases o with
            | none =>
              simp only
              refine ⟨?_, ?_⟩
              · intro o ho
                apply h1 o
                simp only at ho
                split at ho <;> exact ho
              · intro t' h' f hf
                rcases List.mem_or_eq_of_mem_set h' with h' | rfl
                · exact h.frames t' h' f hf
                · cases hf
            | some new =>
              simp only
              refine ⟨h1, ?_⟩
              intro t' h' f hf
              rcases List.mem_or_eq_of_mem_set h' with h' | rfl
              · exact h.frames t' h' f hf
              · rcases List.mem_append.1 hf with hf | hf
                · exact h2 new rfl f hf
                · exact hfr f (List.mem_cons_of_mem _ hf)

theorem CReach.routeInv {cf : GConf L} {c : CState} (h : CReach cf c) : RouteInv c := by
  obtain ⟨es, rfl⟩ := h
  have key : ∀ (es : List (Clock × CEvent)) (c : CState), RouteInv c → RouteInv (crun cf c es) := by
    intro es
    induction es with
    | nil => intro c h; exact h
    | cons e t ih => intro c h; exact ih _ (h.step cf e)
  exact key es _ .init

/-- What is under way between gossipers in a reachable state of a network. -/
theorem NReach.postOk {N : NetConf L} {s : Net} (h : NReach N s) : ∀ m ∈ s.flight, PostOk m.route m.body := by
  obtain ⟨es, rfl⟩ := h
  have node : ∀ (s : Net) (x : Str) (e : Clock × CEvent), (∀ y, RouteInv (s.node y)) →
      (∀ m ∈ s.flight, PostOk m.route m.body) →
      (∀ y, RouteInv ((nodeStep N s x e).node y)) ∧ ∀ m ∈ (nodeStep N s x e).flight, PostOk m.route m.body := by
    intro s x e h1 h2
    unfold nodeStep
    split
    · have hc := (h1 x).step (N.conf x) e
      refine ⟨?_, ?_⟩
      · intro y
        show RouteInv (if y = x then _ else _)
        split
        · exact hc
        · exact h1 y
      · intro m hm
        rcases List.mem_append.1 hm with hm | hm
        · exact h2 m hm
        · exact hc.out _ (List.mem_of_mem_drop (mem_postsOf hm))
    · exact ⟨h1, h2⟩
  have key : ∀ (es : List NEvent) (s : Net), (∀ y, RouteInv (s.node y)) → (∀ m ∈ s.flight, PostOk m.route m.body) →
      ∀ m ∈ (nrun N s es).flight, PostOk m.route m.body := by
    intro es
    induction es with
    | nil => intro s _ h; exact h
    | cons e t ih =>
      intro s h1 h2
      have : (∀ y, RouteInv ((nstep N s e).node y)) ∧ ∀ m ∈ (nstep N s e).flight, PostOk m.route m.body := by
        have ha := nstep_act N s e
        generalize nstep N s e = s' at ha ⊢
        cases ha with
        | skip => exact ⟨h1, h2⟩
        | drop i clk m => exact ⟨h1, fun m hm => h2 m (List.mem_of_mem_eraseIdx hm)⟩
        | deliver i clk m ev => exact node _ _ _ h1 (fun m hm => h2 m (List.mem_of_mem_eraseIdx hm))
        | node x e => exact node _ _ _ h1 h2
      exact ih _ this.1 this.2
  exact key es _ (fun _ => .init) (fun _ h => absurd h List.not_mem_nil)

/-! ### Routers -/

/-- A table without GET routes answers no GET. -/
theorem reach_get_none {rs : List Route} (h : ∀ r ∈ rs, r.method = .post) (n : Nat) (p : Str) : reach rs n .get p = none := by
  cases n with
  | zero => rfl
  | succ n =>
    have hn : ∀ q, rs.find? (fun r => (q = r.path ∨ q = toggleSlash r.path) ∧ Method.get = r.method) = none := by
      intro q
      rw [List.find?_eq_none]
      intro r hr
      simp [h r hr]
    unfold reach
    generalize (if p = [] then go!"/" else p) = q
    unfold routeRequest
    rw [hn]
    simp only
    by_cases ha : (rs.any fun r => decide (q = r.path ∨ q = toggleSlash r.path)) = true
    · rw [if_pos ha]
    · rw [if_neg ha]

/-- Posts to such a table reach exactly the handler registered for the very path. -/
theorem arrives_post {rs : List Route} (h : ∀ r ∈ rs, r.method = .post) (p : Str) (hp : p ≠ []) (e : Endpoint)
    (ha : arrives rs .post p = some e) : ∃ r ∈ rs, r.path = p ∧ r.handler = e := by
  unfold arrives reach routeRequest at ha
  rw [if_neg hp] at ha
  split at ha
  · rename_i x hx
    split at hx
    · rename_i r hr
      split at hx
      · rename_i hpr
        cases hx
        cases ha
        exact ⟨r, List.mem_of_find?_eq_some hr, hpr.symm, rfl⟩
      · cases hx
    · split at hx <;> cases hx
  · rw [reach_get_none h] at ha; cases ha
  · cases ha

/-- The events of the network model and the router: a request between gossipers starts an event at its destination exactly
when it reaches the handler for what its body is. -/
theorem routeEvent_arrives (cf : GConf L) (m : Msg) : (routeEvent cf m).isSome = true ↔ PostOk m.route m.body := by
  have hpost : ∀ r ∈ gossiperRoutes, r.method = .post := by decide +kernel
  have key : ∀ e, arrives gossiperRoutes .post m.route = some e → ∃ r ∈ gossiperRoutes, r.path = m.route ∧ r.handler = e := by
    intro e he
    refine arrives_post hpost m.route ?_ e he
    intro h0
    rw [h0] at he
    revert he
    have : arrives gossiperRoutes .post [] = none := by decide +kernel
    rw [this]
    exact fun h => by cases h
  have hobj : ∀ r ∈ gossiperRoutes, r.handler = .gossipObject ↔ r.path ∈ objRoutes := by decide +kernel
  have hobj2 : ∀ p ∈ objRoutes, arrives gossiperRoutes .post p = some .gossipObject := by decide +kernel
  have hn : ∀ r ∈ gossiperRoutes, r.handler = .gossipNotification ↔ r.path = go!"/gossip/new_payload_notification" := by
    decide +kernel
  have hr : ∀ r ∈ gossiperRoutes, r.handler = .gossipRequest ↔ r.path = go!"/gossip/new_payload_request" := by
    decide +kernel
  unfold routeEvent PostOk
  cases m.body with
  | obj o =>
    simp only
    by_cases hm : m.route ∈ objRoutes
    · rw [if_pos hm]; exact ⟨fun _ => hobj2 _ hm, fun _ => rfl⟩
    · rw [if_neg hm]
      refine ⟨fun h => (by cases h), fun h => ?_⟩
      obtain ⟨r, h1, h2, h3⟩ := key _ h
      exact absurd (h2 ▸ (hobj r h1).1 h3) hm
  | notif n =>
    simp only
    by_cases h1 : m.route = go!"/gossip/new_payload_notification"
    · rw [if_pos h1]
      exact ⟨fun _ => .inl (by rw [h1]; decide +kernel), fun _ => rfl⟩
    · rw [if_neg h1]
      by_cases h2 : m.route = go!"/gossip/new_payload_request"
      · rw [if_pos h2]
        exact ⟨fun _ => .inr (by rw [h2]; decide +kernel), fun _ => rfl⟩
      · rw [if_neg h2]
        refine ⟨fun h => (by cases h), fun h => ?_⟩
        rcases h with h | h
        · obtain ⟨r, a, b, d⟩ := key _ h
          exact absurd (b ▸ (hn r a).1 d) h1
        · obtain ⟨r, a, b, d⟩ := key _ h
          exact absurd (b ▸ (hr r a).1 d) h2

/-- C121, between gossipers: whatever anyone posts to them and whatever the schedule, every request a gossiper has under way
reaches at its destination the handler that decodes what the request carries, and starts it. -/
theorem C121_gossiper_posts_arrive (N : NetConf L) (s : Net) (h : NReach N s) (m : Msg) (hm : m ∈ s.flight) :
    (match m.body with
     | .obj _ => arrives gossiperRoutes .post m.route = some .gossipObject
     | .notif _ => arrives gossiperRoutes .post m.route = some .gossipNotification ∨
        arrives gossiperRoutes .post m.route = some .gossipRequest) ∧
    ∃ ev, routeEvent (N.conf m.dst) m = some ev := by
  have hp := h.postOk m hm
  refine ⟨?_, Option.isSome_iff_exists.1 ((routeEvent_arrives _ m).2 hp)⟩
  unfold PostOk at hp
  cases hb : m.body <;> rw [hb] at hp <;> exact hp

/-- C121, from a monitor: every object a monitor sends, in any history and with any answers to its queries, reaches the
object handler of its gossiper, under the path gossipers use for its type. -/
theorem C121_monitor_posts_arrive (X : XLib) (c : MonConf L) (evs : List MonEvent) (s : MonState)
    (h : monRun X c initMonitor evs = some s) (url : Str) (g : GossipObj) (hg : g ∈ s.sent) :
    arrives gossiperRoutes .post (toGossiper url g).route = some .gossipObject ∧ (toGossiper url g).route = endpointOf g.type := by
  have key := monRun_induct X c (fun s => ∀ g ∈ s.sent, g.type = .STH_INIT ∨ g.type = .REV_INIT ∨ g.type = .ACC_INIT)
    ?_ evs h (by simp [initMonitor])
  · unfold toGossiper
    rcases key g hg with h | h | h <;> rw [h] <;> simp only <;> decide +kernel
  · intro s e s' hsent hs
    rcases mon_cases X c hs with ⟨clk, _, rfl⟩ | ⟨q, w, t, rfl⟩ | ⟨q, w, g, _, rfl⟩ | ⟨q, w, g, hw, rfl⟩ | ⟨i, k, d, _, _, rfl⟩
    · exact hsent
    · exact hsent
    · have : (Mon.storeObject X (reTime s q w s.crvTimers) g).sent = s.sent := by
        unfold Mon.storeObject; cases g.type <;> rfl
      rw [this]; exact hsent
    · intro g' hg'
      rcases List.mem_append.1 hg' with hg' | hg'
      · exact hsent g' hg'
      · rw [List.mem_singleton.1 hg']
        cases hw with
        | forwarded i u k he hq hv hk =>
          rcases hk with hk | hk
          · exact .inl hk.1
          · exact .inr (.inl hk.1)
        | accused i clk u k he hwi hg hp hc ht => rw [hg]; exact .inr (.inr rfl)
    · unfold Mon.fireCRV
      split <;> exact hsent

/-- C121, the other requests: the tree heads and proofs of loggers (Logger/server.go:139, 154), the certificates of CAs
(CA/server.go:285), the objects of gossipers for their owner (gossiper_server.go:535-548) and the queries of monitors
(monitor/monitor.go:146, 242; both with a slash the routes do not have, so that they are redirected once). -/
theorem C121_other_requests_arrive :
    arrives caRoutes .post (go!"/CA/receive-sth") = some .caSTH ∧
    arrives caRoutes .post (go!"/CA/receive-poi") = some .caPOI ∧
    arrives loggerRoutes .post (go!"/Logger/receive-precerts") = some .loggerPrecert ∧
    arrives monitorRoutes .post (go!"/monitor/receive-gossip-from-gossiper") = some .monitorGossip ∧
    arrives loggerRoutes .get (go!"/ctng/v2/get-sth/") = some .loggerSTH ∧
    arrives caRoutes .get (go!"/ctng/v2/get-revocation/") = some .caREV := by
  decide +kernel

/-! ### What the servers answer -/

/-- Tables whose paths are different and do not end in a slash. -/
structure Tidy (rs : List Route) : Prop where
  bare : ∀ r ∈ rs, r.path ≠ [] ∧ r.path.getLast? ≠ some 47
  one : ∀ r ∈ rs, ∀ r' ∈ rs, r.path = r'.path → r = r'

theorem toggleSlash_bare {p : Str} (h : p.getLast? ≠ some 47) : toggleSlash p = p ++ go!"/" := if_neg h

theorem toggleSlash_slash (p : Str) : toggleSlash (p ++ go!"/") = p := by
  unfold toggleSlash
  rw [if_pos (by show (p ++ [47]).getLast? = _; simp)]
  show (p ++ [47]).dropLast = p
  simp

theorem Tidy.find {rs : List Route} (h : Tidy rs) (m : Method) (p : Str) (r : Route) :
    (rs.find? fun r => (p = r.path ∨ p = toggleSlash r.path) ∧ m = r.method) = some r ↔
      r ∈ rs ∧ (p = r.path ∨ p = r.path ++ go!"/") ∧ m = r.method := by
  constructor
  · intro hf
    have hm := List.mem_of_find?_eq_some hf
    have hp := List.find?_some hf
    simp only [decide_eq_true_eq] at hp
    rw [toggleSlash_bare (h.bare r hm).2] at hp
    exact ⟨hm, hp⟩
  · rintro ⟨hm, hp, hme⟩
    cases hf : (rs.find? fun r => decide ((p = r.path ∨ p = toggleSlash r.path) ∧ m = r.method)) with
    | none =>
      rw [List.find?_eq_none] at hf
      have := hf r hm
      rw [toggleSlash_bare (h.bare r hm).2] at this
      exact absurd (decide_eq_true ⟨hp, hme⟩) this
    | some r' =>
      have hm' := List.mem_of_find?_eq_some hf
      have hp' := List.find?_some hf
      simp only [decide_eq_true_eq] at hp'
      rw [toggleSlash_bare (h.bare r' hm').2] at hp'
      have ends : ∀ q : Str, (q ++ go!"/").getLast? = some 47 := fun q => by show (q ++ [47]).getLast? = _; simp
      refine congrArg some (h.one r' hm' r hm ?_)
      rcases hp with hp | hp <;> rcases hp'.1 with hq | hq
      · rw [← hq, hp]
      · exact absurd (by rw [← hp, hq]; exact ends _) (h.bare r hm).2
      · exact absurd (by rw [← hq, hp]; exact ends _) (h.bare r' hm').2
      · exact List.append_cancel_right (hq.symm.trans hp)

theorem Tidy.arrives {rs : List Route} (h : Tidy rs) (m : Method) (p : Str) (e : Endpoint) :
    arrives rs m p = some e ↔
      ∃ r ∈ rs, r.method = m ∧ r.handler = e ∧ (p = r.path ∨ m = .get ∧ p = r.path ++ go!"/") := by
  have empty : ∀ r ∈ rs, ¬ ((go!"/" : Str) = r.path ∨ (go!"/" : Str) = r.path ++ go!"/") := by
    intro r hr hc
    rcases hc with hc | hc
    · exact (h.bare r hr).2 (by rw [← hc]; rfl)
    · refine (h.bare r hr).1 (List.append_cancel_right (bs := go!"/") ?_)
      exact hc.symm
  have hit : ∀ (n : Nat) (m : Method), ∀ r ∈ rs, m = r.method → reach rs (n + 1) m r.path = some r.handler := by
    intro n m r hr hm
    unfold reach routeRequest
    rw [if_neg (h.bare r hr).1, (h.find m r.path r).2 ⟨hr, .inl rfl, hm⟩]
    simp
  have step : ∀ (p : Str) (n : Nat), p ≠ [] → (reach rs (n + 2) m p = some e ↔
      ∃ r ∈ rs, r.method = m ∧ r.handler = e ∧ (p = r.path ∨ m = .get ∧ p = r.path ++ go!"/")) := by
    intro p n hp
    have unfolded : reach rs (n + 2) m p = match routeRequest rs m p with
        | .run h => some h
        | .redirect q => reach rs (n + 1) .get q
        | _ => none := by
      rw [reach, if_neg hp]
      cases routeRequest rs m p <;> rfl
    rw [unfolded]
    unfold routeRequest
    cases hf : (rs.find? fun r => decide ((p = r.path ∨ p = toggleSlash r.path) ∧ m = r.method)) with
    | none =>
      have hno : ¬ ∃ r ∈ rs, r.method = m ∧ r.handler = e ∧ (p = r.path ∨ m = .get ∧ p = r.path ++ go!"/") := by
        rintro ⟨r, hr, hm, _, hq⟩
        have := (h.find m p r).2 ⟨hr, hq.imp id (·.2), hm.symm⟩
        rw [hf] at this
        cases this
      refine ⟨fun hc => ?_, fun hc => absurd hc hno⟩
      simp only at hc
      by_cases ha : (rs.any fun r => decide (p = r.path ∨ p = toggleSlash r.path)) = true
      · rw [if_pos ha] at hc; cases hc
      · rw [if_neg ha] at hc; cases hc
    | some r =>
      obtain ⟨hr, hq, hm⟩ := (h.find m p r).1 hf
      simp only
      by_cases hpr : p = r.path
      · rw [if_pos hpr]
        constructor
        · intro he; cases he; exact ⟨r, hr, hm.symm, rfl, .inl hpr⟩
        · rintro ⟨r', hr', hm', he, hq'⟩
          have := (h.find m p r').2 ⟨hr', hq'.imp id (·.2), hm'.symm⟩
          rw [hf] at this
          cases this
          exact congrArg some he
      · rw [if_neg hpr]
        have hps := hq.resolve_left hpr
        have ht : toggleSlash p = r.path := by rw [hps, toggleSlash_slash]
        simp only [ht]
        constructor
        · intro he
          have : r.method = .get := by
            unfold reach routeRequest at he
            rw [if_neg (h.bare r hr).1] at he
            cases hf2 : (rs.find? fun r' => decide ((r.path = r'.path ∨ r.path = toggleSlash r'.path) ∧ Method.get = r'.method)) with
            | none =>
              rw [hf2] at he
              simp only at he
              by_cases ha : (rs.any fun r' => decide (r.path = r'.path ∨ r.path = toggleSlash r'.path)) = true
              · rw [if_pos ha] at he; cases he
              · rw [if_neg ha] at he; cases he
            | some r' =>
              obtain ⟨a, b, d⟩ := (h.find _ _ _).1 hf2
              have : r = r' := by
                rcases b with b | b
                · exact h.one r hr r' a b
                · refine absurd ?_ (h.bare r hr).2
                  rw [b]; show (r'.path ++ [47]).getLast? = _; simp
              rw [this]; exact d.symm
          rw [hit n .get r hr this.symm] at he
          cases he
          exact ⟨r, hr, hm.symm, rfl, .inr ⟨hm.trans this, hps⟩⟩
        · rintro ⟨r', hr', hm', he, hq'⟩
          have hrr := (h.find m p r').2 ⟨hr', hq'.imp id (·.2), hm'.symm⟩
          rw [hf] at hrr
          cases hrr
          have hg : m = .get := (hq'.resolve_left hpr).1
          rw [hit n .get r hr (hg ▸ hm), he]
  unfold CTng.arrives
  by_cases hp : p = []
  · subst hp
    constructor
    · intro hc
      have : reach rs 11 m [] = reach rs 11 m (go!"/") := by
        rw [reach, reach, if_pos rfl, if_neg (by decide)]
      replace hc := (step (go!"/") 9 (by decide)).1 (this ▸ hc)
      obtain ⟨r, hr, _, _, hq⟩ := hc
      exact absurd (hq.imp id (·.2)) (empty r hr)
    · rintro ⟨r, hr, _, _, hq⟩
      rcases hq with hq | ⟨_, hq⟩
      · exact absurd hq.symm (h.bare r hr).1
      · have := congrArg List.length hq
        rw [List.length_append] at this
        have : (go!"/" : Str).length = 1 := rfl
        simp only [List.length_nil] at *
        omega
  · exact step p 9 hp

/-- The four servers. -/
inductive Server
  | ca
  | logger
  | monitor
  | gossiper

/-- What the protocol says a server answers. -/
inductive Answers : Server → Method → Str → Endpoint → Prop
  | sth : Answers .ca .post (go!"/CA/receive-sth") .caSTH
  | poi : Answers .ca .post (go!"/CA/receive-poi") .caPOI
  | revocations : Answers .ca .get (go!"/ctng/v2/get-revocation") .caREV
  | precerts : Answers .logger .post (go!"/Logger/receive-precerts") .loggerPrecert
  | head : Answers .logger .get (go!"/ctng/v2/get-sth") .loggerSTH
  | update : Answers .monitor .get (go!"/monitor/get-update") .monitorUpdate
  | owner : Answers .monitor .post (go!"/monitor/receive-gossip-from-gossiper") .monitorGossip
  | object (k : Str) (hk : k ∈ [go!"sth_init", go!"rev_init", go!"acc_init", go!"con_init", go!"sth_frag", go!"rev_frag", go!"acc_frag"]) :
      Answers .gossiper .post (go!"/gossip/" ++ k) .gossipObject
  | request : Answers .gossiper .post (go!"/gossip/new_payload_request") .gossipRequest
  | notification : Answers .gossiper .post (go!"/gossip/new_payload_notification") .gossipNotification

def Server.routes : Server → List Route
  | .ca => caRoutes
  | .logger => loggerRoutes
  | .monitor => monitorRoutes
  | .gossiper => gossiperRoutes

/-- C121, what is answered: a request of whatever method and path reaches a handler of a server exactly if it is one of the
protocol's, a GET also with a slash at the end; a POST with a slash reaches none. -/
theorem C121_answered (v : Server) (m : Method) (p : Str) (e : Endpoint) :
    arrives v.routes m p = some e ↔ Answers v m p e ∨ m = .get ∧ ∃ q, p = q ++ go!"/" ∧ Answers v .get q e := by
  have tidy : Tidy v.routes := by
    cases v <;> exact ⟨by decide +kernel, by decide +kernel⟩
  have table : ∀ m p e, (∃ r ∈ v.routes, r.method = m ∧ r.handler = e ∧ p = r.path) ↔ Answers v m p e := by
    intro m p e
    constructor
    · rintro ⟨r, hr, rfl, rfl, rfl⟩
      cases v with
      | ca =>
        simp only [Server.routes, caRoutes, List.mem_cons, List.not_mem_nil, or_false] at hr
        rcases hr with rfl | rfl | rfl
        · exact .sth
        · exact .poi
        · exact .revocations
      | logger =>
        simp only [Server.routes, loggerRoutes, List.mem_cons, List.not_mem_nil, or_false] at hr
        rcases hr with rfl | rfl
        · exact .precerts
        · exact .head
      | monitor =>
        simp only [Server.routes, monitorRoutes, List.mem_cons, List.not_mem_nil, or_false] at hr
        rcases hr with rfl | rfl
        · exact .update
        · exact .owner
      | gossiper =>
        simp only [Server.routes, gossiperRoutes, List.mem_cons, List.not_mem_nil, or_false] at hr
        rcases hr with rfl | rfl | rfl | rfl | rfl | rfl | rfl | rfl | rfl
        · exact .object (go!"sth_init") (by decide)
        · exact .object (go!"rev_init") (by decide)
        · exact .object (go!"acc_init") (by decide)
        · exact .object (go!"con_init") (by decide)
        · exact .object (go!"sth_frag") (by decide)
        · exact .object (go!"rev_frag") (by decide)
        · exact .object (go!"acc_frag") (by decide)
        · exact .request
        · exact .notification
    · intro h
      cases h with
      | object k hk =>
        have : ∀ k ∈ [go!"sth_init", go!"rev_init", go!"acc_init", go!"con_init", go!"sth_frag", go!"rev_frag", go!"acc_frag"],
            ∃ r ∈ gossiperRoutes, r.method = .post ∧ r.handler = .gossipObject ∧ (go!"/gossip/" ++ k : Str) = r.path := by
          decide +kernel
        exact this k hk
      | _ => simp [Server.routes, caRoutes, loggerRoutes, monitorRoutes, gossiperRoutes]
  rw [tidy.arrives]
  constructor
  · rintro ⟨r, hr, hm, he, hq | ⟨hg, hq⟩⟩
    · exact .inl ((table _ _ _).1 ⟨r, hr, hm, he, hq⟩)
    · exact .inr ⟨hg, r.path, hq, (table _ _ _).1 ⟨r, hr, hm.trans hg, he, rfl⟩⟩
  · rintro (ha | ⟨hg, q, hq, ha⟩)
    · obtain ⟨r, hr, hm, he, hq⟩ := (table _ _ _).2 ha
      exact ⟨r, hr, hm, he, .inl hq⟩
    · obtain ⟨r, hr, hm, he, hq'⟩ := (table _ _ _).2 ha
      exact ⟨r, hr, hm.trans hg.symm, he, .inr ⟨hg, by rw [hq, hq']⟩⟩

/-- C121: the update of a monitor with a slash, with POST, and another path. -/
example : arrives monitorRoutes .get (go!"/monitor/get-update/") = some .monitorUpdate ∧
    arrives monitorRoutes .post (go!"/monitor/get-update") = none ∧ arrives monitorRoutes .get (go!"/get-update") = none := by
  decide +kernel

/-- A redirected POST is lost: it becomes a GET. The routes the sending code knows for FULL objects do not exist; no FULL
object is sent to a gossiper. -/
example : routeRequest gossiperRoutes .post (go!"/gossip/sth_init/") = .redirect (go!"/gossip/sth_init") ∧
    arrives gossiperRoutes .post (go!"/gossip/sth_init/") = none ∧
    routeRequest gossiperRoutes .get (go!"/gossip/sth_init") = .notAllowed ∧
    arrives gossiperRoutes .post (endpointOf .STH_FULL) = none ∧
    arrives gossiperRoutes .post [] = none ∧
    routeRequest loggerRoutes .get (go!"/ctng/v2/get-sth/") = .redirect (go!"/ctng/v2/get-sth") := by decide +kernel

/-- C121: a monitor has sent the tree head its logger answered with. -/
example : ((monRun Ref.xlib Ref.monConf initMonitor [.query Ref.clk, .answer 0 (.obj Ref.sth)]).map fun s =>
    s.sent.map fun g => (toGossiper (go!"G1") g).route) = some [go!"/gossip/sth_init"] := by decide +kernel

/-- C121: G1 of a mesh has received L1's tree head; one request is under way. -/
example : (nrun Ref.mesh Net.init ([.node (go!"G1") (Ref.clk, .recv 10 Ref.sth)] ++
    List.replicate 20 (.node (go!"G1") (Ref.clk, .run 0)))).flight.map (fun m => (m.dst, m.route)) =
    [(go!"G2", go!"/gossip/sth_init")] := by decide +kernel

end CTng
