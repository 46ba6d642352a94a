import Verif.Proofs.WireMonitor
import Verif.Proofs.JsonGrammar
import Verif.Props.Network
import Verif.Props.Logger
/- C80, C95, C96, C97: the bytes on the wire and on the disk. -/
set_option autoImplicit false

namespace CTng
namespace Wire
open Json Mon

/-! ### C95 -/

section gossipers
variable {L : Lib} (N : NetConf L.withJson)

/-- C95, for gossipers whose identifiers are valid UTF-8: a network that exchanges bytes, with any bytes posted from outside,
does the same as the network that exchanges objects, on the requests that decode. Missing for the full property: identifiers
that are not valid UTF-8. -/
theorem C95_bytes_as_objects_partial (hN : ∀ x ∈ N.ids, NodeText (N.conf x)) (hser : ∀ s, Safe (L.blsSerHex s))
    (h : List BEvent) (hk : ∀ e ∈ h, ClockOk e.clock) :
    (brun N .init h).node = (nrun N .init (h.filterMap BEvent.read)).node ∧
      (brun N .init h).flight = (nrun N .init (h.filterMap BEvent.read)).flight.map packet :=
  ⟨(rel_run N hN hser h hk).node, (rel_run N hN hser h hk).flight⟩

/-- C95, for the theorems about networks that exchange objects: what holds of the gossipers in every reachable state holds of
gossipers that exchange bytes. Missing: as above. -/
theorem C95_transfer_partial (hN : ∀ x ∈ N.ids, NodeText (N.conf x)) (hser : ∀ s, Safe (L.blsSerHex s))
    (P : (Str → CState) → Prop) (hP : ∀ s, NReach N s → P s.node) (h : List BEvent) (hk : ∀ e ∈ h, ClockOk e.clock) :
    P (brun N .init h).node := by
  rw [(rel_run N hN hser h hk).node]
  exact hP _ ⟨_, rfl⟩

/-- C95, for what is posted to a gossiper: the request under way is answered as one that carries exactly the object or the
notification that was sent, of exactly its length. Missing: as above. -/
theorem C95_peer_reads_partial (hN : ∀ x ∈ N.ids, NodeText (N.conf x)) (hser : ∀ s, Safe (L.blsSerHex s))
    (h : List BEvent) (hk : ∀ e ∈ h, ClockOk e.clock) (x : Str) (hx : x ∈ N.ids) (dst route : Str) (b : Body)
    (hm : Out.peer dst route b ∈ ((brun N .init h).node x).g.out) :
    (∀ o, b = .obj o → decode .zero dGossip (bodyText b) = (o, true) ∧
      (route ∈ objRoutes → requestEvent route (bodyText b).length (bodyText b) = some (.recv (bodyText b).length o))) ∧
    (∀ n, b = .notif n → decode notifZero dNotif (bodyText b) = (n, true) ∧
      (requestEvent route (bodyText b).length (bodyText b) = some (.notify (bodyText b).length n) ∨
        requestEvent route (bodyText b).length (bodyText b) = some (.request (bodyText b).length n))) := by
  have hr := rel_run N hN hser h hk
  rw [hr.node] at hm
  have hh := ((hr.has x hx).state.out _ hm).resolve_left id
  cases b with
  | obj o =>
    have hd := decode_objText hh.1
    refine ⟨?_, (fun n hn => by cases hn)⟩
    intro o' ho
    cases ho
    refine ⟨hd, fun hrt => ?_⟩
    simp only [requestEvent, hd, if_pos hrt, if_true]
  | notif n =>
    have hd := decode_notifText hh.1
    refine ⟨(fun o' ho => by cases ho), ?_⟩
    intro n' hn
    cases hn
    refine ⟨hd, ?_⟩
    simp only [requestEvent, hd, if_true]
    rcases hh.2 with hr | hr <;> subst hr
    · rw [if_neg control_not_obj.2, if_neg control_ne]; exact .inl rfl
    · rw [if_neg control_not_obj.1]; exact .inr rfl

/-- C95, for what a gossiper hands to its monitor: the monitor decodes exactly that object, and answers 200. Missing: as
above. -/
theorem C95_owner_reads_partial (hN : ∀ x ∈ N.ids, NodeText (N.conf x)) (hser : ∀ s, Safe (L.blsSerHex s))
    (h : List BEvent) (hk : ∀ e ∈ h, ClockOk e.clock) (x : Str) (hx : x ∈ N.ids) (o : GossipObj)
    (hm : Out.owner o ∈ ((brun N .init h).node x).g.out) :
    (BMonEvent.gossip (render (gossipJson o))).read = .gossip (some o) ∧ gossipStatus (render (gossipJson o)) = 200 := by
  have hr := rel_run N hN hser h hk
  rw [hr.node] at hm
  have ho : decode .zero dGossip (render (gossipJson o)) = (o, true) := decode_objText (((hr.has x hx).state.out _ hm).resolve_left id)
  simp only [BMonEvent.read, gossipStatus, ho, if_true, and_self]

end gossipers

section monitors
variable {L : Lib} (X : XLib) (c : MonConf L)

/-- C95, for what a monitor posts to its gossiper: the gossiper decodes exactly that object, whatever bytes the monitor was
sent. Missing: as above. -/
theorem C95_gossiper_reads_partial (hc : MonText c) (dir : Str) (h : List BMonEvent)
    (hk : ∀ e ∈ h, ∀ clk, e.clock = some clk → ClockOk clk) (s : BMon) (hs : bmonRun X c dir .init h = some s)
    (url : Str) (g : GossipObj) (hg : g ∈ s.m.sent) :
    requestEvent (toGossiper url g).route (toGossiper url g).body.length (toGossiper url g).body =
      some (.recv (toGossiper url g).body.length g) := by
  have hi := (monInv_init c dir).run X c hc h hk hs
  have hd : decode .zero dGossip (toGossiper url g).body = (g, true) := decode_objText (hi.sent g hg)
  have ht : g.type = .STH_INIT ∨ g.type = .REV_INIT ∨ g.type = .ACC_INIT := by
    have hrun := bmonRun_read X c (dir := dir) h .init
    rw [hs] at hrun
    exact sent_types X c _ hrun.symm g hg
  unfold requestEvent
  rw [hd]
  rcases ht with ht | ht | ht <;> simp only [toGossiper, ht] <;> rw [if_pos (by decide)] <;> rfl

end monitors

/-! ### C80 -/

section updates
variable {L : Lib} (X : XLib) (c : MonConf L)

/-- C80 does not hold: whatever files the monitor has and whatever the client sends with its request, fetching a client update
is an error. The update is sent as a JSON string, or the handler dies because there is no such file. -/
theorem C80_violated_fetch (dir : Str) (disk : Files) (body : Str) : fetchClientUpdate (requestUpdate dir disk body) = none := by
  unfold requestUpdate
  split
  · rfl
  · split
    · simp only [fetchClientUpdate, fetchReply, if_true]
      rw [unmarshal_encodeLine _ _ _ (numOk_str _)]
      rfl
    · rfl

/-- C80, for the file: every client update a monitor has written is read back from its file exactly as it was, by the client and
by the monitor itself, whatever bytes the monitor was sent. Missing for the full property: the way from the monitor to the
client. -/
theorem C80_file_partial (hc : MonText c) (dir : Str) (h : List BMonEvent)
    (hk : ∀ e ∈ h, ∀ clk, e.clock = some clk → ClockOk clk) (s : BMon) (hs : bmonRun X c dir .init h = some s)
    (p : Str) (u : ClientUpdate) (hu : s.m.files.get p = some u) :
    loadUpdate (s.disk.get (updatePath dir p)) = some u ∧ prepareClientUpdate s.disk (updatePath dir p) = some u := by
  have hi := (monInv_init c dir).run X c hc h hk hs
  have hok := hi.files p u hu
  have hd : s.disk.get (updatePath dir p) = some (fileText u) := by rw [hi.disk p, hu]; rfl
  refine ⟨by rw [hd]; exact loadUpdate_fileText hok, ?_⟩
  simp only [prepareClientUpdate, hd, unmarshal_fileText hok, if_true]

/-- C80, for a client that names the period in the body of its request and undoes the extra encoding: it gets the update as it
was written. Missing: `FetchClientUpdate` does neither. -/
theorem C80_reply_partial (hc : MonText c) (dir : Str) (h : List BMonEvent)
    (hk : ∀ e ∈ h, ∀ clk, e.clock = some clk → ClockOk clk) (s : BMon) (hs : bmonRun X c dir .init h = some s)
    (p : Str) (hp : Utf8 p) (u : ClientUpdate) (hu : s.m.files.get p = some u) :
    ∃ t, requestUpdate dir s.disk (render (.str p)) = .status 200 t ∧
      ∃ b, unmarshal [] dBytes t = (b, true) ∧ unmarshal updateZero dUpdate b = (u, true) := by
  have hi := (monInv_init c dir).run X c hc h hk hs
  have hp' : decode [] dStr (render (.str p)) = (p, true) := by
    rw [decode_render _ _ _ (numOk_str _)]
    simp only [clean, dStr]
    rw [show sanitize p = p from hp]
  refine ⟨encodeLine (.str (b64enc (render (updateJson u)))), ?_, render (updateJson u), ?_, unmarshal_updateText (hi.files p u hu)⟩
  · simp only [requestUpdate, hp', (C80_file_partial X c hc dir h hk s hs p u hu).2, if_true]
  · rw [unmarshal_encodeLine _ _ _ (numOk_str _)]
    exact dBytes_read _ _

/-- C80: the client takes an update only from a reply with status 200 whose whole body is one JSON text that fits the type; every
other reply is an error. -/
theorem C80_fetch_fails_closed (r : Reply) (u : ClientUpdate) (h : fetchClientUpdate r = some u) :
    ∃ t j, r = .status 200 t ∧ Doc t j ∧ dUpdate updateZero j = (u, true) := by
  cases r with
  | closed => cases h
  | status code t =>
    unfold fetchClientUpdate fetchReply at h
    by_cases hc : code = 200
    · subst hc
      simp only [if_true] at h
      split at h
      · rename_i ht
        cases hp : parse t with
        | none => unfold unmarshal at ht; rw [hp] at ht; cases ht
        | some j =>
          have e : unmarshal updateZero dUpdate t = dUpdate updateZero j := by unfold unmarshal; rw [hp]
          rw [e] at h ht
          exact ⟨t, j, rfl, (parse_iff t j).1 hp, Prod.ext (Option.some.inj h) ht⟩
      · cases h
    · simp only [if_neg hc] at h; cases h

/-- C80: the monitor answers 200 only with an update that is on its disk, in a file whose whole text is one JSON text that fits the
type. -/
theorem C80_served_is_on_disk (dir : Str) (disk : Files) (body t : Str) (h : requestUpdate dir disk body = .status 200 t) :
    ∃ text j u, disk.get (updatePath dir (decode [] dStr body).1) = some text ∧ Doc text j ∧
      dUpdate updateZero j = (u, true) ∧ t = encodeLine (.str (b64enc (render (updateJson u)))) := by
  unfold requestUpdate prepareClientUpdate at h
  cases hd : disk.get (updatePath dir (decode [] dStr body).1) with
  | none => rw [hd] at h; cases h
  | some text =>
    simp only [hd] at h
    by_cases ht : (unmarshal updateZero dUpdate text).2 = true
    · simp only [ht, if_true] at h
      cases hp : parse text with
      | none => unfold unmarshal at ht; rw [hp] at ht; cases ht
      | some j =>
        have e : unmarshal updateZero dUpdate text = dUpdate updateZero j := by unfold unmarshal; rw [hp]
        rw [e] at h ht
        split at h
        · exact ⟨text, j, _, rfl, (parse_iff text j).1 hp, Prod.ext rfl ht, (Reply.status.inj h).2.symm⟩
        · cases (Reply.status.inj h).1
    · simp only [ht] at h; cases h

end updates

/-! ### C96 -/

/-- C96, for the answers to a monitor's queries: an answer that is not, as a whole, a JSON text that fits the type counts as no
answer. -/
theorem C96_bad_answer_is_none {L : Lib} (X : XLib) (c : MonConf L) (dir : Str) (s : BMon) (i : Nat) (body : Str)
    (h : ∀ j, Doc body j → (dGossip .zero j).2 = false) :
    bmonStep X c dir s (.answer i (some body)) = bmonStep X c dir s (.answer i none) := by
  have : (unmarshal .zero dGossip body).2 = false := by
    unfold unmarshal
    cases hp : parse body with
    | none => rfl
    | some j => exact h j ((parse_iff body j).1 hp)
  simp only [bmonStep, BMonEvent.read, this, Bool.false_eq_true, if_false]

/-- C96, for gossipers: a request to no route, or whose body does not begin with a JSON text that fits the type, changes nothing.
Missing for the full property: the monitor's port. -/
theorem C96_gossiper_partial {L : Lib} (N : NetConf L) (s : BNet) (x : Str) (clk : Clock) (route : Str) (len : Int) (body : Str)
    (hr : (route ∉ objRoutes ∧ route ≠ go!"/gossip/new_payload_request" ∧ route ≠ go!"/gossip/new_payload_notification") ∨
      (route ∈ objRoutes ∧ ∀ j, Front body j → (dGossip .zero j).2 = false) ∨
      (route ∉ objRoutes ∧ ∀ j, Front body j → (dNotif notifZero j).2 = false)) :
    bstep N s (.post x clk route len body) = s := by
  have : requestEvent route len body = none := by
    unfold requestEvent
    rcases hr with ⟨h1, h2, h3⟩ | ⟨h1, h2⟩ | ⟨h1, h2⟩
    · rw [if_neg h1, if_neg h2, if_neg h3]
    · rw [if_pos h1, decode_misfit h2]; rfl
    · rw [if_neg h1, decode_misfit h2]
      simp only [Bool.false_eq_true, if_false, ite_self]
  simp only [bstep, brequest, this]

/-- C96, for the monitor's port: a body that does not begin with a JSON text changes nothing. Missing: bodies that are JSON but do not fit the
type. -/
theorem C96_monitor_partial {L : Lib} (X : XLib) (c : MonConf L) (dir : Str) (s : BMon) (body : Str) (h : ∀ j, ¬ Front body j) :
    bmonStep X c dir s (.gossip body) = some s ∧ gossipStatus body = 400 := by
  have hd : decode .zero dGossip body = (.zero, false) := by unfold decode; rw [parseFirst_none h]
  constructor
  · have : monStep X c s.m (BMonEvent.gossip body).read = some s.m := by
      simp only [BMonEvent.read, hd, monStep]
      exact congrArg some (handleGossip_none X c s.m)
    simp only [bmonStep, this]
  · simp only [gossipStatus, hd, Bool.false_eq_true, if_false]

/-! ### C97 -/

theorem parse_hex_brace (t : Str) : parse (55 :: 98 :: t) = none := by
  have h1 : value (2 * (t.length + 1 + 1) + 2) (55 :: 98 :: t) = some (.num [55], 98 :: t) := by
    simp [value, skipWs, isSpace, number, signPart, intPart, digits, isDigit, fracPart, expPart]
  unfold parse
  rw [show (55 :: 98 :: t : Str).length = t.length + 1 + 1 from rfl, h1]
  simp [skipWs, isSpace]

/-- C97 does not hold: of the tree heads loggers make, none gives a root hash, and nothing after one of them does: the payload is
the hexadecimal form of the JSON text, not the text. -/
theorem C97_violated_no_hash {L : Lib} (X : XLib) (wrap unwrap : Str → Str) (c : LoggerConf L) (t : Instant) (certs : List Cert)
    (n : Nat) (b : Built) (hb : buildMerkle (X.withJson wrap unwrap) c t certs n = some b) (rest : List GossipObj) :
    getRootHash (b.sth :: rest) = some [] := by
  unfold buildMerkle at hb
  cases hm : merkleNew L.sha256 (certs.map Cert.block) with
  | none => rw [hm] at hb; cases hb
  | some tree =>
    rw [hm] at hb
    simp only [Option.map_some, Option.some.injEq] at hb
    subst hb
    have : ∀ d, ∃ t, hexEncode ((X.withJson wrap unwrap).encSTH d) = 55 :: 98 :: t := by
      intro d
      obtain ⟨x, hx⟩ : ∃ x, render (sthJson d) = 123 :: x := ⟨_, by simp only [sthJson, render]; rfl⟩
      exact ⟨hexEncode x, by simp only [XLib.withJson, hx]; rfl⟩
    obtain ⟨r, hr⟩ := this _
    simp only [getRootHash]
    rw [hr, parse_hex_brace]

/-- C97, for objects whose payload is the JSON text itself: their root hashes, in order. Missing for the full property: the
hexadecimal form, which is what the objects of the system have. -/
theorem C97_plain_partial (l : List GossipObj) (ds : List STHData) (h : l.map (·.payload.p1) = ds.map fun d => render (sthJson d))
    (hu : ∀ d ∈ ds, Utf8 d.rootHash) : getRootHash l = some (ds.map (·.rootHash)) := by
  induction l generalizing ds with
  | nil => cases ds with
    | nil => rfl
    | cons d ds => cases h
  | cons g t ih =>
    cases ds with
    | nil => cases h
    | cons d ds =>
      simp only [List.map_cons, List.cons.injEq] at h
      have hp := parse_render (sthJson d) (numOk_sth d)
      simp only [getRootHash]
      rw [h.1, hp]
      have hk : sanitize (go!"Signer") = go!"Signer" ∧ sanitize (go!"Timestamp") = go!"Timestamp" ∧
          sanitize (go!"Period") = go!"Period" ∧ sanitize (go!"RootHash") = go!"RootHash" ∧
          sanitize (go!"TreeSize") = go!"TreeSize" := by decide +kernel
      obtain ⟨k1, k2, k3, k4, k5⟩ := hk
      have hr : sanitize d.rootHash = d.rootHash := hu d (by simp)
      have hm : mapValue (go!"RootHash") (cleanMembers [(go!"Signer", .str d.signer), (go!"Timestamp", .str d.timestamp),
          (go!"Period", .str d.period), (go!"RootHash", .str d.rootHash), (go!"TreeSize", .num (itoa d.treeSize))]) =
          some (.str d.rootHash) := by
        simp only [cleanMembers, cleanMember, k1, k2, k3, k4, k5, clean, hr]
        rfl
      simp only [sthJson, clean]
      rw [hm, ih ds h.2 fun x hx => hu x (by simp [hx])]
      rfl

/-! ### Concrete cases -/

open Ref

/-- C97, what holds for any payload: if it is an object, its last member called `RootHash` counts, whatever members are before it. -/
theorem C97_last_member_partial (g : GossipObj) (rest : List GossipObj) (pre post : List (Str × Json)) (h : Str)
    (hp : Json.parse g.payload.p1 = some (.obj (pre ++ (go!"RootHash", .str h) :: post))) (hpost : ∀ m ∈ post, m.1 ≠ go!"RootHash") :
    getRootHash (g :: rest) = (getRootHash rest).map fun r => h :: r := by
  have hm : mapValue (go!"RootHash") (pre ++ (go!"RootHash", .str h) :: post) = some (.str h) := by
    unfold mapValue
    rw [List.reverse_append, List.reverse_cons, List.append_assoc, List.find?_append,
      List.find?_eq_none.2 (fun m hmem => by simpa using hpost m (List.mem_reverse.1 hmem))]
    simp
  simp only [getRootHash, hp, hm]

/-- The configuration of `Ref.conf` with JSON as modelled. -/
def wcrypto (self : Str) : CryptoConfig lib.withJson where
  threshold := 2
  n := 3
  hashScheme := 4
  signScheme := go!"rsa"
  thresholdScheme := go!"bls"
  selfID := self
  signPublicMap := rsaMap [go!"L1", go!"C1", go!"M1", go!"G1", go!"G2", go!"G3"]
  signSecretKey := self
  thresholdPublicMap := blsMap [go!"G1", go!"G2", go!"G3"]
  thresholdSecretKey := self

/-- A gossiper connected to the others. -/
def wconf (ids : List Str) (self : Str) : GConf lib.withJson where
  crypto := wcrypto self
  connected := ids.filter (· ≠ self)
  ownerURL := go!"M1"
  optThreshold := 1000
  optMode := false
  totalLogger := 1
  totalCA := 1
  jsonLen := fun o => (bodyText (.obj o)).length
  notifLen := fun n => (bodyText (.notif n)).length

/-- Gossipers connected with each other. -/
def wnet (ids : List Str) : NetConf lib.withJson := ⟨ids, wconf ids⟩

/-- The goroutine takes `n` steps. -/
def steps (x : Str) (i n : Nat) : List BEvent := List.replicate n (.node x clk (.run i))

/-- A tree head is posted with an unknown content length; its gossip wait ends. -/
def hist (x : Str) : List BEvent :=
  [.post x clk (go!"/gossip/sth_init") (-1) (bodyText (.obj sth))] ++ steps x 0 20 ++ [.node x clk (.fire 0)] ++ steps x 1 20

theorem wconf_text (ids : List Str) (h : ∀ x ∈ ids, Utf8 x) : ∀ x ∈ (wnet ids).ids, NodeText ((wnet ids).conf x) :=
  fun x hx => ⟨h x hx, fun _ => rfl, fun _ => rfl⟩

/-- Two gossipers with proper names. -/
def pair : List Str := [go!"G1", go!"G2"]

theorem pair_text : ∀ x ∈ (wnet pair).ids, NodeText ((wnet pair).conf x) := wconf_text pair (by decide +kernel)

theorem hist_clock (x : Str) : ∀ e ∈ hist x, ClockOk e.clock := by
  intro e he
  have : e.clock = clk := by
    simp only [hist, steps, List.mem_append, List.mem_singleton, List.mem_replicate] at he
    rcases he with ((rfl | ⟨_, rfl⟩) | rfl) | ⟨_, rfl⟩ <;> rfl
  rw [this]
  exact ⟨by decide +kernel, by decide +kernel⟩

/-- The outputs of gossiper `x` after `hist x`. -/
def outs (ids : List Str) (x : Str) : List Out := ((brun (wnet ids) .init (hist x)).node x).g.out

/-- C95: G1 posts the tree head and its fragment to G2 and hands the tree head to its monitor; G2 and the monitor read them. -/
example : (outs pair (go!"G1")).map (fun
    | .peer d r (.obj o) => (d, r, o.type, decide (decode .zero dGossip (bodyText (.obj o)) = (o, true)))
    | .owner o => ([], [], o.type, decide (gossipStatus (bodyText (.obj o)) = 200))
    | .signed o => ([], [], o.type, true)
    | _ => ([], [], .STH_INIT, false)) =
    [(go!"G2", go!"/gossip/sth_init", .STH_INIT, true), ([], [], .STH_INIT, true), ([], [], .STH_FRAG, true),
      (go!"G2", go!"/gossip/sth_frag", .STH_FRAG, true)] := by decide +kernel

example : decode .zero dGossip (bodyText (.obj sth)) = (sth, true) := by
  have hm : Out.peer (go!"G2") (go!"/gossip/sth_init") (.obj sth) ∈ outs pair (go!"G1") := by decide +kernel
  exact ((C95_peer_reads_partial (wnet pair) pair_text (blsLaws.hex_safe) (hist (go!"G1")) (hist_clock _) (go!"G1") (by decide)
    _ _ _ hm).1 _ rfl).1

example : (BMonEvent.gossip (render (gossipJson sth))).read = .gossip (some sth) := by
  have hm : Out.owner sth ∈ outs pair (go!"G1") := by decide +kernel
  exact (C95_owner_reads_partial (wnet pair) pair_text (blsLaws.hex_safe) (hist (go!"G1")) (hist_clock _) (go!"G1") (by decide)
    _ hm).1

/-- C95 does not hold of a gossiper whose identifier is not valid UTF-8: what it sends is decoded without an error, as something
else. -/
theorem C95_violated_identifier : ∃ (N : NetConf lib.withJson) (h : List BEvent) (x : Str), x ∈ N.ids ∧
    (∀ e ∈ h, ClockOk e.clock) ∧ ∃ dst route o, Out.peer dst route (.obj o) ∈ ((brun N .init h).node x).g.out ∧
      (decode .zero dGossip (bodyText (.obj o))).2 = true ∧ (decode .zero dGossip (bodyText (.obj o))).1 ≠ o := by
  refine ⟨wnet [[255], go!"G2"], hist [255], [255], by decide, hist_clock _, ?_⟩
  have h : (outs [[255], go!"G2"] [255]).any (fun
      | .peer _ _ (.obj o) => (decode .zero dGossip (bodyText (.obj o))).2 && decide ((decode .zero dGossip (bodyText (.obj o))).1 ≠ o)
      | _ => false) = true := by decide +kernel
  obtain ⟨x, hx, hp⟩ := List.any_eq_true.1 h
  cases x with
  | peer d r b =>
    cases b with
    | obj o =>
      simp only [Bool.and_eq_true, decide_eq_true_eq] at hp
      exact ⟨d, r, o, hx, hp⟩
    | notif n => cases hp
  | owner o => cases hp
  | signed o => cases hp
  | generatedFull i o => cases hp

theorem monConf_text : MonText monConf := ⟨by decide +kernel, by decide +kernel⟩

/-- The gossiper brings a tree head, the query at L1 fails, the wait ends with an accusation, the period ends. -/
def bmonHist : List BMonEvent :=
  [.gossip (bodyText (.obj sthFull05)), .query clk, .answer 0 (some (go!"oops")), .wait 0 clk, .finish clk]

theorem bmonHist_clock : ∀ e ∈ bmonHist, ∀ k, e.clock = some k → ClockOk k := by
  intro e he k hk
  have : k = clk := by
    simp only [bmonHist, List.mem_cons, List.not_mem_nil, or_false] at he
    rcases he with rfl | rfl | rfl | rfl | rfl <;> cases hk <;> rfl
  rw [this]
  exact ⟨by decide +kernel, by decide +kernel⟩

/-- C80: the file of the period holds the tree head. -/
example : ((bmonRun xlib monConf (go!"data") .init bmonHist).bind fun s => (loadUpdate (s.disk.get (go!"data/Period_2/ClientUpdate.json"))).map
    fun u => (u.sths, u.period, u.monitorID)) = some ([sthFull05], go!"05", go!"M1") := by decide +kernel

example (s : BMon) (hs : bmonRun xlib monConf (go!"data") .init bmonHist = some s) (u : ClientUpdate)
    (hu : s.m.files.get (go!"2") = some u) : loadUpdate (s.disk.get (updatePath (go!"data") (go!"2"))) = some u :=
  (C80_file_partial xlib monConf monConf_text _ bmonHist bmonHist_clock s hs _ u hu).1

/-- C95: the accusation of L1 reaches the gossiper as it was sent. -/
example : ((bmonRun xlib monConf (go!"data") .init bmonHist).map fun s => s.m.sent.map fun g =>
    (g.type, decide (requestEvent (toGossiper (go!"G1") g).route (toGossiper (go!"G1") g).body.length (toGossiper (go!"G1") g).body =
      some (.recv (toGossiper (go!"G1") g).body.length g)))) = some [(.ACC_INIT, true)] := by decide +kernel

/-- A tree head with a number for a period. -/
def misfit : Str :=
  go!"{\"type\":\"http://ctng.uconn.edu/301\",\"period\":5,\"payload\":[\"L1\",\"x\",\"y\"]}"

/-- C96 does not hold of the monitor: it answers 400 to a body that does not fit the type, and keeps what it could read of it. -/
theorem C96_violated_monitor : ∃ body s', gossipStatus body = 400 ∧
    bmonStep xlib monConf (go!"data") .init (.gossip body) = some s' ∧ s'.m.sthFull.has ⟨[], .STH_FULL, go!"L1"⟩ = true := by
  refine ⟨misfit, ⟨handleGossip xlib monConf initMonitor (some (decode .zero dGossip misfit).1), .empty⟩, by decide +kernel, rfl, by decide +kernel⟩

/-- C96: garbage at a gossiper and at a monitor. -/
example (s : BNet) : bstep (wnet pair) s (.post (go!"G1") clk (go!"/gossip/sth_init") 3 (go!"oops")) = s :=
  C96_gossiper_partial _ _ _ _ _ _ _ (.inr (.inl ⟨by decide, fun j hj =>
    absurd hj (no_front (by decide +kernel) (by decide +kernel) j)⟩))

example (s : BMon) : bmonStep xlib monConf (go!"data") s (.gossip (go!"{\"type\":")) = some s :=
  (C96_monitor_partial xlib monConf _ s _ (no_front (by decide +kernel) (by decide +kernel))).1

/-- C96: a page of an unrelated server counts as no answer. -/
example (s : BMon) : bmonStep xlib monConf (go!"data") s (.answer 0 (some (go!"<html>"))) =
    bmonStep xlib monConf (go!"data") s (.answer 0 none) :=
  C96_bad_answer_is_none xlib monConf _ s 0 _ (by
    intro j hj
    have : parse (go!"<html>") = none := by decide +kernel
    exact absurd hj ((parse_none_iff _).1 this j))

/-- C80: an update served as plain JSON with status 200 is taken, with another status it is not. -/
example : fetchClientUpdate (.status 200 (render (updateJson updateZero))) = some updateZero ∧
    fetchClientUpdate (.status 500 (render (updateJson updateZero))) = none := by decide +kernel

/-- C80 with the period in the request: the reply decodes to the update. -/
example : ((bmonRun xlib monConf (go!"data") .init bmonHist).bind fun s =>
    match requestUpdate (go!"data") s.disk (render (.str (go!"2"))) with
    | .status 200 t => some ((unmarshal updateZero dUpdate (unmarshal [] dBytes t).1).1.sths)
    | _ => none) = some [sthFull05] := by decide +kernel

/-- C97: L1's tree of two certificates. -/
example : ∃ b, buildMerkle (xlib.withJson id id) logConf at05 [leaf (go!"C1") (go!"s1") (go!"k1") 1, leaf (go!"C1") (go!"s2") (go!"k2") 2] 6 =
    some b ∧ getRootHash [b.sth] = some [] := by
  obtain ⟨_, _, b, hb, _⟩ := buildMerkle_some (xlib.withJson id id) logConf at05
    [leaf (go!"C1") (go!"s1") (go!"k1") 1, leaf (go!"C1") (go!"s2") (go!"k2") 2] 6 (by decide)
  exact ⟨b, hb, C97_violated_no_hash xlib id id logConf at05 _ 6 b hb []⟩

/-- C97 on a payload in plain JSON. -/
example : getRootHash [{ sth with payload := ⟨go!"L1", go!"{\"RootHash\":\"aa\",\"RootHash\":\"bb\",\"x\":1}", []⟩ }] = some [go!"bb"] :=
  C97_last_member_partial _ [] [(go!"RootHash", .str (go!"aa"))] [(go!"x", .num (go!"1"))] (go!"bb") (by rfl) (by decide +kernel)

example : getRootHash [{ sth with payload := ⟨go!"L1", render (sthJson ⟨go!"L1", go!"t", go!"5", go!"ab12", 7⟩), []⟩ }] =
    some [go!"ab12"] :=
  C97_plain_partial _ [⟨go!"L1", go!"t", go!"5", go!"ab12", 7⟩] rfl (by decide +kernel)

end Wire
end CTng
