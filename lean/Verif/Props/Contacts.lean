import Verif.Props.LoggerConc
import Verif.Props.Lies
import Verif.Props.MonitorUpdates
import Verif.Props.SystemSth
import Verif.Props.GossiperMisc
import Verif.Proofs.GossiperFull
/-
C133: only configured addresses are contacted. Gossipers post to the sender named in a message, loggers to the issuer named in a
certificate, whoever sent it; everything else goes where the configuration says.
-/
set_option autoImplicit false

namespace CTng
open Mon

/-- The message asks for an answer to the address `u`. -/
def CEvent.asks (u : Str) : CEvent → Bool
  | .notify _ n | .request _ n => decide (n.sender = u)
  | _ => false

/-- A request to the address `u`. -/
def Out.isTo (u : Str) : Out → Bool
  | .peer v _ _ => decide (v = u)
  | _ => false

/-- About to answer to the address `u`. -/
def Frame.asks (u : Str) : Frame → Bool
  | .notify _ n | .request _ n => decide (n.sender = u)
  | _ => false

section
variable {L : Lib}

/-- No handler of objects starts a handler of notifications. -/
theorem stepFrame_asks (cf : GConf L) (u : Str) (clk : Clock) (s : GState) (f : Frame) :
    ((stepFrame cf clk s f).2.getD []).countP (Frame.asks u) = 0 := by
  cases f <;> simp only [stepFrame, Option.getD_some, List.countP_nil, Frame.asks, List.countP_cons] <;>
    (repeat' split) <;>
    simp_all [Frame.asks, List.countP_nil, afterStore]
  all_goals (repeat' split) <;> simp_all

theorem ostep_to (cf : GConf L) (u : Str) (hu : u ∉ cf.connected) {clk : Clock} {s : GState} {f : Frame} {o : List Out}
    (h : OStep cf clk s f o) : o.countP (Out.isTo u) ≤ if f.asks u then 1 else 0 := by
  have hc : ∀ (r : Str) (b : Body), (cf.connected.map fun v => Out.peer v r b).countP (Out.isTo u) = 0 := by
    intro r b
    rw [List.countP_eq_zero]
    intro x hx
    obtain ⟨v, hv, rfl⟩ := List.mem_map.1 hx
    simp only [Out.isTo, decide_eq_true_eq]
    exact fun e => hu (e ▸ hv)
  cases h with
  | announce g _ _ => rw [hc]; omega
  | forward g g' _ _ => rw [hc]; omega
  | ask n x => simp [Out.isTo, Frame.asks, List.countP_cons]
  | answer n x o _ _ => simp [Out.isTo, Frame.asks, List.countP_cons]
  | _ => simp [Out.isTo]

/-- Goroutines about to answer to `u`. -/
def asking (u : Str) (c : CState) : Nat := (c.threads.map fun t => t.frames.countP (Frame.asks u)).sum

theorem contact_step (cf : GConf L) (u : Str) (hu : u ∉ cf.connected) (c : CState) (e : Clock × CEvent) :
    (cstep cf c e).g.out.countP (Out.isTo u) + asking u (cstep cf c e) ≤
      c.g.out.countP (Out.isTo u) + asking u c + if e.2.asks u then 1 else 0 := by
  obtain ⟨clk, e⟩ := e
  unfold cstep
  split
  · omega
  · cases e with
    | recv n o => simp [asking, Frame.asks, CEvent.asks]
    | notify n x => simp [asking, Frame.asks, CEvent.asks, List.countP_cons]; omega
    | request n x => simp [asking, Frame.asks, CEvent.asks, List.countP_cons]; omega
    | fire i => dsimp only; split <;> simp [asking, Frame.asks, CEvent.asks]
    | periodic => simp [asking, Frame.asks, CEvent.asks]
    | run i =>
      dsimp only
      split
      · omega
      · rename_i t ht
        have hs := fun t' => sum_set (fun t : Thread => t.frames.countP (Frame.asks u)) c.threads i t t' ht
        have key : (stepThread cf clk c.g t).1.out.countP (Out.isTo u) + (stepThread cf clk c.g t).2.frames.countP (Frame.asks u) ≤
            c.g.out.countP (Out.isTo u) + t.frames.countP (Frame.asks u) := by
          unfold stepThread
          split
          · exact Nat.le_refl _
          · rename_i f fs hf
            obtain ⟨o, ho, he⟩ := stepFrame_out cf clk c.g f
            have h1 := ostep_to cf u hu ho
            have h2 := stepFrame_asks cf u clk c.g f
            rw [hf, List.countP_cons]
            split
            · rename_i s new hst
              rw [hst] at he h2
              simp only [Option.getD_some] at h2
              simp only at he
              rw [he, List.countP_append, List.countP_append, h2]
              omega
            · rename_i s hst
              rw [hst] at he
              simp only at he
              have : (if t.fatal = true then { s with crashed := true } else s).out = s.out := by split <;> rfl
              rw [this, he, List.countP_append, List.countP_nil]
              omega
        have := hs (stepThread cf clk c.g t).2
        simp only [asking, CEvent.asks, Bool.false_eq_true, if_false, Nat.add_zero] at this ⊢
        omega

theorem contact_run (cf : GConf L) (u : Str) (hu : u ∉ cf.connected) (h : List (Clock × CEvent)) (c : CState) :
    (crun cf c h).g.out.countP (Out.isTo u) + asking u (crun cf c h) ≤
      c.g.out.countP (Out.isTo u) + asking u c + h.countP fun e => e.2.asks u := by
  induction h generalizing c with
  | nil => exact Nat.le_refl _
  | cons e r ih =>
    have h1 := ih (cstep cf c e)
    have h2 := contact_step cf u hu c e
    rw [List.countP_cons]
    show (crun cf (cstep cf c e) r).g.out.countP (Out.isTo u) + asking u (crun cf (cstep cf c e) r) ≤ _
    omega

/-- Every message about to be answered was received. -/
def FromOutside (h : List (Clock × CEvent)) : Frame → Prop
  | .notify b n => ∃ clk, (clk, .notify b n) ∈ h
  | .request b n => ∃ clk, (clk, .request b n) ∈ h
  | _ => True

/-- Why a request was sent to `u`: it is a configured peer, or a message received named it. -/
def Reason (cf : GConf L) (h : List (Clock × CEvent)) (u route : Str) (body : Body) : Prop :=
  u ∈ cf.connected ∨
  (∃ clk b n, (clk, .notify b n) ∈ h ∧ n.sender = u ∧ route = go!"/gossip/new_payload_request" ∧
    body = .notif { n with sender := cf.crypto.selfID }) ∨
  (∃ clk b n o, (clk, .request b n) ∈ h ∧ n.sender = u ∧ route = go!"/gossip/rev_init" ∧ body = .obj o ∧ o.payload.p0 ≠ [])

structure ReasonInv (cf : GConf L) (h : List (Clock × CEvent)) (c : CState) : Prop where
  frames : ∀ t ∈ c.threads, ∀ f ∈ t.frames, FromOutside h f
  out : ∀ u r b, .peer u r b ∈ c.g.out → Reason cf h u r b

theorem FromOutside.mono {h h' : List (Clock × CEvent)} (hs : ∀ e ∈ h, e ∈ h') {f : Frame} (hf : FromOutside h f) : FromOutside h' f := by
  cases f with
  | notify b n => obtain ⟨k, hk⟩ := hf; exact ⟨k, hs _ hk⟩
  | request b n => obtain ⟨k, hk⟩ := hf; exact ⟨k, hs _ hk⟩
  | _ => trivial

theorem Reason.mono {cf : GConf L} {h h' : List (Clock × CEvent)} (hs : ∀ e ∈ h, e ∈ h') {u r : Str} {b : Body} (hr : Reason cf h u r b) :
    Reason cf h' u r b := by
  rcases hr with hr | ⟨k, b, n, h1, h2⟩ | ⟨k, b, n, o, h1, h2⟩
  · exact .inl hr
  · exact .inr (.inl ⟨k, b, n, hs _ h1, h2⟩)
  · exact .inr (.inr ⟨k, b, n, o, hs _ h1, h2⟩)

theorem stepFrame_inside (cf : GConf L) (h : List (Clock × CEvent)) (clk : Clock) (s : GState) (f : Frame) :
    ∀ g ∈ (stepFrame cf clk s f).2.getD [], FromOutside h g := by
  intro g hg
  cases g with
  | notify b n =>
    have := List.countP_eq_zero.1 (stepFrame_asks cf n.sender clk s f) _ hg
    simp [Frame.asks] at this
  | request b n =>
    have := List.countP_eq_zero.1 (stepFrame_asks cf n.sender clk s f) _ hg
    simp [Frame.asks] at this
  | _ => trivial

theorem ostep_reason {cf : GConf L} {h : List (Clock × CEvent)} {clk : Clock} {s : GState} {f : Frame} {o : List Out}
    (hf : FromOutside h f) (ho : OStep cf clk s f o) (u r : Str) (b : Body) (hm : .peer u r b ∈ o) : Reason cf h u r b := by
  cases ho with
  | announce g _ _ => obtain ⟨v, hv, e⟩ := List.mem_map.1 hm; cases e; exact .inl hv
  | forward g g' _ _ => obtain ⟨v, hv, e⟩ := List.mem_map.1 hm; cases e; exact .inl hv
  | ask n x =>
    obtain ⟨k, hk⟩ := hf
    rw [List.mem_singleton] at hm
    cases hm
    exact .inr (.inl ⟨k, n, x, hk, rfl, rfl, rfl⟩)
  | answer n x o _ h0 =>
    obtain ⟨k, hk⟩ := hf
    rw [List.mem_singleton] at hm
    cases hm
    exact .inr (.inr ⟨k, n, x, o, hk, rfl, rfl, rfl, h0⟩)
  | _ => simp at hm

theorem reason_step {cf : GConf L} {h : List (Clock × CEvent)} {c : CState} (I : ReasonInv cf h c) (e : Clock × CEvent) :
    ReasonInv cf (h ++ [e]) (cstep cf c e) := by
  have hs : ∀ x ∈ h, x ∈ h ++ [e] := fun x hx => List.mem_append_left _ hx
  have I1 : ReasonInv cf (h ++ [e]) c := ⟨fun t ht f hf => (I.frames t ht f hf).mono hs, fun u r b hb => (I.out u r b hb).mono hs⟩
  obtain ⟨clk, e⟩ := e
  have he : (clk, e) ∈ h ++ [(clk, e)] := by simp
  generalize h ++ [(clk, e)] = h' at I1 he
  unfold cstep
  split
  · exact I1
  · have add : ∀ (g : GState) (t : Thread), g.out = c.g.out → (∀ f ∈ t.frames, FromOutside h' f) →
        ReasonInv cf h' ⟨g, c.threads ++ [t]⟩ := by
      intro g t hg hf
      refine ⟨fun t' ht' => ?_, by rw [hg]; exact I1.out⟩
      rcases List.mem_append.1 ht' with h1 | h1
      · exact I1.frames t' h1
      · rw [List.mem_singleton.1 h1]; exact hf
    cases e with
    | recv n o => exact add _ _ rfl (by simp [FromOutside])
    | notify n x => exact add _ _ rfl (by simp only [List.mem_singleton, forall_eq]; exact ⟨clk, he⟩)
    | request n x => exact add _ _ rfl (by simp only [List.mem_singleton, forall_eq]; exact ⟨clk, he⟩)
    | fire i =>
      dsimp only
      split
      · exact I1
      · exact add _ _ rfl (by simp [FromOutside])
    | periodic => exact add _ _ rfl (by simp [FromOutside])
    | run i =>
      dsimp only
      split
      · exact I1
      · rename_i t ht
        have hin := I1.frames t (List.mem_of_getElem? ht)
        have key : (∀ f ∈ (stepThread cf clk c.g t).2.frames, FromOutside h' f) ∧
            ∀ u r b, .peer u r b ∈ (stepThread cf clk c.g t).1.out → Reason cf h' u r b := by
          unfold stepThread
          split
          · exact ⟨hin, I1.out⟩
          · rename_i f fs hf
            rw [hf] at hin
            obtain ⟨o, ho, heq⟩ := stepFrame_out cf clk c.g f
            have hnew := stepFrame_inside cf h' clk c.g f
            have hout : ∀ u r b, .peer u r b ∈ (stepFrame cf clk c.g f).1.out → Reason cf h' u r b := by
              intro u r b hm
              rw [heq] at hm
              rcases List.mem_append.1 hm with h1 | h1
              · exact I1.out u r b h1
              · exact ostep_reason (hin f (by simp)) ho u r b h1
            split
            · rename_i s new hst
              rw [hst] at hnew hout
              refine ⟨fun g hg => ?_, hout⟩
              rcases List.mem_append.1 hg with h1 | h1
              · exact hnew g h1
              · exact hin g (by simp [h1])
            · rename_i s hst
              rw [hst] at hout
              refine ⟨fun g hg => (by cases hg), ?_⟩
              have : (if t.fatal = true then { s with crashed := true } else s).out = s.out := by split <;> rfl
              rw [this]; exact hout
        refine ⟨fun t' ht' => ?_, key.2⟩
        rcases List.mem_or_eq_of_mem_set ht' with h1 | h1
        · exact I1.frames t' h1
        · rw [h1]; exact key.1

theorem reason_run (cf : GConf L) (h : List (Clock × CEvent)) : ReasonInv cf h (crun cf CState.init h) := by
  suffices H : ∀ (l h0 : List (Clock × CEvent)) c, ReasonInv cf h0 c → ReasonInv cf (h0 ++ l) (crun cf c l) from
    H h [] _ ⟨fun t ht => (by cases ht), fun u r b hb => (by cases hb)⟩
  intro l
  induction l with
  | nil => intro h0 c hc; rw [List.append_nil]; exact hc
  | cons e r ih =>
    intro h0 c hc
    have := ih (h0 ++ [e]) (cstep cf c e) (reason_step hc e)
    rwa [List.append_assoc] at this

/-- C133 fails at every gossiper: whoever can post to it has it post to any address (and, since the address is the text between
`http://` and the route, with any path). -/
theorem C133_violated_gossiper_sender (cf : GConf L) (c : CState) (hc : c.g.crashed = false) (u : Str) (id : GossipID) :
    ∃ n : Notification, n.sender = u ∧ ∀ clk clk' b,
      (crun cf c [(clk, .notify b n), (clk', .run c.threads.length)]).g.out =
        c.g.out ++ [.peer u (go!"/gossip/new_payload_request") (.notif { n with sender := cf.crypto.selfID })] := by
  have hfresh : ∃ hash, searchPayload L c.g id hash = false := by
    unfold searchPayload
    cases c.g.storage.revPayload.get { id with type := .REV_INIT } with
    | none => exact ⟨[], rfl⟩
    | some o => exact ⟨computeObjHash L o ++ [0], by simp⟩
  obtain ⟨hash, hh⟩ := hfresh
  refine ⟨⟨u, id.period, id.type, id.entity, hash⟩, rfl, fun clk clk' b => ?_⟩
  simp only [crun, List.foldl_cons, List.foldl_nil, cstep, hc, Bool.false_eq_true, if_false, List.getElem?_concat_length, stepThread, stepFrame,
    notificationHandler]
  split
  · rfl
  · rename_i hn; exact absurd hh hn

/-- C133 fails at every gossiper that holds the payload of a revocation: whoever can post to it has it post the whole revocation to
any address. -/
theorem C133_violated_gossiper_payload (cf : GConf L) (c : CState) (hc : c.g.crashed = false) (u : Str) (id : GossipID) (o : GossipObj)
    (ho : c.g.storage.revPayload.get { id with type := .REV_INIT } = some o) (h0 : o.payload.p0 ≠ []) (hash : Str) (clk clk' : Clock) (b : Int) :
    (crun cf c [(clk, .request b ⟨u, id.period, id.type, id.entity, hash⟩), (clk', .run c.threads.length)]).g.out =
      c.g.out ++ [.peer u (go!"/gossip/rev_init") (.obj o)] := by
  simp only [crun, List.foldl_cons, List.foldl_nil, cstep, hc, Bool.false_eq_true, if_false, List.getElem?_concat_length, stepThread, stepFrame,
    requestHandler, getREVrequested, ho, Option.getD_some]
  rw [if_pos h0]

/-- C133 at a gossiper, what holds under every schedule: an address that is not a configured peer is sent at most as many requests as
there were messages that named it, and only answers to such messages: the question for a revocation, or a revocation. Missing:
messages may name any address. -/
theorem C133_gossiper_partial (cf : GConf L) (h : History) (u : Str) (hu : u ∉ cf.connected) :
    (crun cf CState.init h).g.out.countP (Out.isTo u) ≤ (h.countP fun e => e.2.asks u) ∧
    ∀ r b, .peer u r b ∈ (crun cf CState.init h).g.out →
      (∃ clk n x, (clk, .notify n x) ∈ h ∧ x.sender = u ∧ r = go!"/gossip/new_payload_request" ∧
        b = .notif { x with sender := cf.crypto.selfID }) ∨
      (∃ clk n x o, (clk, .request n x) ∈ h ∧ x.sender = u ∧ r = go!"/gossip/rev_init" ∧ b = .obj o ∧ o.payload.p0 ≠ []) := by
  constructor
  · have := contact_run cf u hu h CState.init
    simp only [CState.init, GState.init, asking, List.countP_nil, List.map_nil, List.sum_nil, Nat.zero_add] at this ⊢
    omega
  · intro r b hm
    exact ((reason_run cf h).out u r b hm).resolve_left hu

/-! ### Loggers -/

variable {X : XLib}

/-- Somebody posted a certificate with this issuer to the logger. -/
def NamedIssuer (X : XLib) (h : List LogConcEvent) (a : Str) : Prop :=
  ∃ body cert, .precert body ∈ h ∧ X.parseCert body = some cert ∧ cert.issuerCN = a

/-- The addresses an end of period has still to contact. -/
def RoundNames (c : LoggerConf L) (Q : Str → Prop) : RoundAt → Prop
  | .fake _ _ b => ∀ p ∈ b.pois, Q p.issuer
  | .store _ _ b _ => ∀ p ∈ b.pois, Q p.issuer
  | .sths b todo => (∀ p ∈ b.pois, Q p.issuer) ∧ ∀ a ∈ todo, a ∈ c.allCAs
  | .pois _ todo => ∀ p ∈ todo, Q p.issuer
  | _ => True

structure LogContacts (c : LoggerConf L) (Q : Str → Prop) (m : LogConc) : Prop where
  pool : ∀ x ∈ m.s.pool.getCerts, Q x.issuerCN
  rounds : ∀ r ∈ m.rounds, RoundNames c Q r
  sths : ∀ x ∈ m.s.sentSTHs, x.1 ∈ c.allCAs
  pois : ∀ x ∈ m.s.sentPOIs, Q x.1

theorem pool_add_mem {p q : CertPool} {x : Cert} (h : p.addCert x = .ok q) (y : Cert) (hy : y ∈ q.getCerts) : y ∈ p.getCerts ∨ y = x := by
  unfold CertPool.addCert at h
  cases hc : p.contains x with
  | panic => rw [hc] at h; cases h
  | ok b =>
    rw [hc] at h
    cases b with
    | true => cases h; exact .inl hy
    | false =>
      simp only [CertPool.Res.ok.injEq] at h
      subst h
      rcases List.mem_append.1 hy with h1 | h1
      · exact .inl h1
      · exact .inr (List.mem_singleton.1 h1)

theorem roundStep_contacts (c : LoggerConf L) {Q : Str → Prop} {t : Instant} {up : Reach} {s s' : LoggerState} {r r' : RoundAt}
    {new : List (List Cert × GossipObj)} (hp : ∀ x ∈ s.pool.getCerts, Q x.issuerCN) (hr : RoundNames c Q r)
    (h1 : ∀ x ∈ s.sentSTHs, x.1 ∈ c.allCAs) (h2 : ∀ x ∈ s.sentPOIs, Q x.1) (h : roundStep X c t up s r = some (s', new, r')) :
    RoundNames c Q r' ∧ (∀ x ∈ s'.sentSTHs, x.1 ∈ c.allCAs) ∧ ∀ x ∈ s'.sentPOIs, Q x.1 := by
  cases r with
  | list =>
    simp only [roundStep] at h
    split at h
    · cases h
    · rename_i b hb
      cases h
      refine ⟨fun p hpm => ?_, h1, h2⟩
      obtain ⟨x, hx, _, e⟩ := (buildMerkle_pois_mem X c hb).2 p hpm
      rw [e]; exact hp x hx
  | fake t0 certs b =>
    simp only [roundStep] at h
    split at h
    · cases h
    · split at h
      · cases h
      · cases h; exact ⟨hr, h1, h2⟩
  | store t0 certs b f => cases h; exact ⟨⟨hr, fun a ha => ha⟩, h1, h2⟩
  | sths b todo =>
    cases todo with
    | nil => cases h; exact ⟨hr.1, h1, h2⟩
    | cons a r =>
      simp only [roundStep, Option.some.injEq, Prod.mk.injEq] at h
      obtain ⟨rfl, _, rfl⟩ := h
      refine ⟨⟨hr.1, fun a' ha => hr.2 a' (by simp [ha])⟩, ?_, ?_⟩
      · split
        · intro x hx
          rcases List.mem_append.1 hx with hx | hx
          · exact h1 x hx
          · rw [List.mem_singleton.1 hx]; exact hr.2 a (by simp)
        · exact h1
      · split <;> exact h2
  | pois b todo =>
    cases todo with
    | nil => cases h; exact ⟨trivial, h1, h2⟩
    | cons p r =>
      have hr' : ∀ q ∈ r, Q q.issuer := fun q hq => hr q (List.mem_cons_of_mem _ hq)
      simp only [roundStep] at h
      split at h
      · split at h
        · split at h
          · split at h
            · cases h
              refine ⟨hr', h1, fun x hx => ?_⟩
              rcases List.mem_append.1 hx with hx | hx
              · exact h2 x hx
              · rw [List.mem_singleton.1 hx]; exact hr p (by simp)
            · cases h
          · cases h; exact ⟨trivial, h1, h2⟩
        · cases h
      · cases h; exact ⟨hr', h1, h2⟩
  | count => cases h; exact ⟨trivial, h1, h2⟩
  | reset => cases h; exact ⟨trivial, h1, h2⟩
  | done => cases h; exact ⟨trivial, h1, h2⟩

theorem logContacts_step (c : LoggerConf L) {Q : Str → Prop} {m : LogConc} (I : LogContacts c Q m) (e : LogConcEvent)
    (he : ∀ body cert, e = .precert body → X.parseCert body = some cert → Q cert.issuerCN) : LogContacts c Q (logConcStep X c m e) := by
  unfold logConcStep
  split
  · exact I
  · cases e with
    | precert body =>
      dsimp only
      split
      · exact ⟨I.pool, I.rounds, I.sths, I.pois⟩
      · rename_i s' hs
        obtain ⟨cert, hc, ha, e'⟩ := loggerReceive_pool X hs
        rw [e']
        refine ⟨fun x hx => ?_, I.rounds, I.sths, I.pois⟩
        rcases pool_add_mem ha x hx with h1 | h1
        · exact I.pool x h1
        · rw [h1]; exact he body cert rfl hc
    | request t => exact ⟨I.pool, I.rounds, I.sths, I.pois⟩
    | timer =>
      refine ⟨I.pool, fun r hr => ?_, I.sths, I.pois⟩
      rcases List.mem_append.1 hr with h1 | h1
      · exact I.rounds r h1
      · rw [List.mem_singleton.1 h1]; trivial
    | run i t up =>
      dsimp only
      split
      · exact I
      · rename_i r hr
        split
        · exact ⟨I.pool, I.rounds, I.sths, I.pois⟩
        · rename_i s' new r' hst
          obtain ⟨k1, k2, k3⟩ := roundStep_contacts c I.pool (I.rounds r (List.mem_of_getElem? hr)) I.sths I.pois hst
          refine ⟨?_, fun q hq => ?_, k2, k3⟩
          · rcases roundStep_pool X c hst with e | e <;> rw [e]
            · exact I.pool
            · intro x hx; cases hx
          · rcases List.mem_or_eq_of_mem_set hq with h1 | h1
            · exact I.rounds q h1
            · rw [h1]; exact k1

theorem logContacts_run (c : LoggerConf L) {Q : Str → Prop} (h : List LogConcEvent)
    (he : ∀ body cert, .precert body ∈ h → X.parseCert body = some cert → Q cert.issuerCN) {m : LogConc} (I : LogContacts c Q m) :
    LogContacts c Q (logConcRun X c m h) := by
  induction h generalizing m with
  | nil => exact I
  | cons e r ih =>
    rw [logConcRun_cons]
    exact ih (fun b x hb => he b x (by simp [hb])) (logContacts_step c I e fun b x e' => he b x (by simp [e']))

/-- C133 at a logger, what holds under every schedule of ends of periods, certificates and requests: tree heads are posted to the
configured CAs only, and proofs of inclusion only to issuers named in certificates that were posted to it. Missing: certificates may
name any issuer. -/
theorem C133_logger_partial (c : LoggerConf L) (h : List LogConcEvent) :
    (∀ x ∈ (logConcRun X c LogConc.init h).s.sentSTHs, x.1 ∈ c.allCAs) ∧
    ∀ x ∈ (logConcRun X c LogConc.init h).s.sentPOIs, ∃ body cert, .precert body ∈ h ∧ X.parseCert body = some cert ∧ cert.issuerCN = x.1 := by
  have I := logContacts_run (X := X) (Q := NamedIssuer X h) c h (fun b x h1 h2 => ⟨b, x, h1, h2, rfl⟩)
    (m := LogConc.init) ⟨fun x hx => (by cases hx), fun x hx => (by cases hx), fun x hx => (by cases hx), fun x hx => (by cases hx)⟩
  exact ⟨I.sths, I.pois⟩

/-- C133 fails at every logger: whoever can post to it posts a certificate that names any address as its issuer, and at the end of the
period the logger posts a proof to this address (if another certificate is in the pool, and no two share a key or have none). -/
theorem C133_violated_logger_issuer (c : LoggerConf L) (evs : List LoggerEvent) (s s1 s' : LoggerState) (h : loggerRun X c initLogger evs = some s)
    (body : Str) (cert : Cert) (hb : X.parseCert body = some cert) (hnew : ∀ x ∈ s.pool.getCerts, x.rawSubject ≠ cert.rawSubject)
    (h1 : loggerStep X c s (.precert body) = some s1) (t : Instant) (hr : loggerStep X c s1 (.finish t) = some s')
    (hne : ∀ x ∈ s1.pool.getCerts, x.subjectKeyId ≠ [])
    (hinj : ∀ x ∈ s1.pool.getCerts, ∀ y ∈ s1.pool.getCerts, x.subjectKeyId = y.subjectKeyId → x = y) :
    ∃ p, (cert.issuerCN, p) ∈ s'.sentPOIs := by
  have hrun : loggerRun X c initLogger (evs ++ [.precert body]) = some s1 := by
    rw [loggerRun_append, h]
    simp only [Option.bind_some, loggerRun, h1]
  obtain ⟨b, _, sent, hs, _, hall⟩ := C75_all_proofs_sent_partial X c _ s1 s' hrun t hr hne hinj
  have hin : cert.parseTBS ∈ s1.pool.getCerts := by
    obtain ⟨p', ha, hc⟩ := poolRep_add_new (loggerRun_pool X c evs poolRep_new h) cert.parseTBS (fun y hy => hnew y hy)
    obtain ⟨cert', hc', ha', _⟩ := loggerReceive_pool X h1
    rw [hb] at hc'
    cases hc'
    rw [ha] at ha'
    cases ha'
    show cert.parseTBS ∈ s1.pool.certs
    rw [hc]; simp
  obtain ⟨i, hi⟩ := List.getElem?_of_mem hin
  obtain ⟨p, hp, _⟩ := hall i _ hi
  exact ⟨p, by rw [hs]; exact List.mem_append_right _ (List.mem_of_getElem? hp)⟩

/-! ### Monitors -/

/-- C133 at a monitor: in every history, whatever it is posted and answered, its queries go to configured loggers and CAs (and what it
posts goes to its gossiper, `C39`). -/
theorem C133_monitor (c : MonConf L) (evs : List MonEvent) (s : MonState) (h : monRun X c initMonitor evs = some s) :
    ∀ q ∈ s.queries, q.1 ∈ c.loggerURLs ∨ q.1 ∈ c.caURLs := by
  suffices H : ∀ (evs : List MonEvent) (s0 : MonState), (∀ x ∈ s0.queries, x.1 ∈ c.urls) → (∀ x ∈ s0.waits, x.1 ∈ c.urls) →
      monRun X c s0 evs = some s → ∀ x ∈ s.queries, x.1 ∈ c.urls from
    fun q hq => List.mem_append.1 (H evs initMonitor (fun x hx => (by cases hx)) (fun x hx => (by cases hx)) h q hq)
  intro evs
  induction evs with
  | nil => intro s0 hq _ h; cases h; exact hq
  | cons e r ih =>
    intro s0 hq hw h
    simp only [monRun] at h
    split at h
    · cases h
    · rename_i s1 h1
      obtain ⟨k1, k2⟩ := queries_step X c h1 hq hw
      exact ih s1 k1 k2 h

end

namespace Ref

/-- G1 is not configured to know "victim"; asked in its name three times, it posts there three times. -/
def askedThrice : History :=
  [(clk, .notify 5 ⟨go!"victim", go!"05", .REV_INIT, go!"C1", go!"h"⟩), (clk, .run 0), (clk, .notify 5 ⟨go!"victim", go!"05", .REV_INIT, go!"C1", go!"h"⟩),
   (clk, .notify 5 ⟨go!"victim", go!"05", .REV_INIT, go!"C1", go!"h"⟩), (clk, .run 2), (clk, .run 1)]

example : go!"victim" ∉ (mesh.conf (go!"G1")).connected ∧
    (crun (mesh.conf (go!"G1")) CState.init askedThrice).g.out.countP (Out.isTo (go!"victim")) = 3 ∧
    (askedThrice.countP fun e => e.2.asks (go!"victim")) = 3 := by decide +kernel

example : (crun (mesh.conf (go!"G1")) CState.init askedThrice).g.out.countP (Out.isTo (go!"victim")) ≤ 3 :=
  (C133_gossiper_partial (mesh.conf (go!"G1")) askedThrice (go!"victim") (by decide)).1

/-- A gossiper that holds a revocation posts it to "victim". -/
example : let c := crun optConf CState.init ((clk, .recv 100 headRev) :: List.replicate 20 (clk, .run 0))
    c.g.crashed = false ∧ c.g.storage.revPayload.get ⟨headRev.period, .REV_INIT, headRev.payload.p0⟩ = some headRev ∧ headRev.payload.p0 ≠ [] := by
  decide +kernel

/-- A certificate of "Evil", who is on no list, has the logger post to "Evil". -/
example : ((loggerRun xlib logConf initLogger [.precert leafB.raw, .precert leafE.raw]).bind fun s =>
    (loggerStep xlib logConf s (.finish at58)).map fun s' =>
      (decide (leafE.issuerCN ∈ logConf.caList ++ logConf.allCAs), s'.sentPOIs.map (·.1), s'.sentSTHs.map (·.1))) =
    some (false, [go!"C1", go!"Evil"], [go!"C1"]) := by decide +kernel

/-- The same under a schedule of single steps. -/
example : ((logConcRun xlib logConf LogConc.init ([.precert leafB.raw, .precert leafE.raw, .timer] ++ rounds 0 10)).s.sentPOIs.map (·.1)) =
    [go!"C1", go!"Evil"] := by decide +kernel

/-- The queries of a monitor, after an answer. -/
example : ((monRun xlib monConf initMonitor [.query clk]).map fun s => s.queries.map (·.1)) = some [go!"L1", go!"C1"] := by decide +kernel

end Ref
end CTng
