import Verif.Proofs.System
import Verif.Props.Client
/-
C111: from the tree heads two monitors fetch to the certificates clients reject.
-/
set_option autoImplicit false

namespace CTng
open Mon Client

variable {L : Lib} (X : XLib) (S : SysConf L)

/-- A query of the monitor of `x` to a logger is answered with the object. -/
def Answered (s : Sys) (h : List SysEvent) (x : Str) (o : GossipObj) : Prop :=
  ∃ a i b m u, monHist X S x s h = a ++ .answer i (.obj o) :: b ∧
    ((s.mon x).bind fun m => monRun X (S.mon x) m a) = some m ∧ m.queries[i]? = some (u, .logger)

/-- Nothing is under way in the network or between gossipers and monitors. -/
structure SysQuiet (s : Sys) : Prop where
  net : Quiet S.net s.net
  posts : s.posts = []

/-- A logger with a split view, from start-up: the history `h0` up to a moment at which nobody has heard of its tree head for
the period, and the history `h` after it. Monitor `x` and everybody else who posts to gossiper `x` are given the version
`view x` only. -/
structure SplitView (k : GossipID) (signer : Str) (view : Str → Option Sig2) (h0 h : List SysEvent) : Prop where
  mesh : Mesh S.net
  keys : ∀ x ∈ S.net.ids, SameVerify (S.mon x).crypto (S.net.conf x).crypto
  kind : k.type = .STH_INIT
  start : SplitStart S.net k (sysRun X S Sys.init h0).net
  fresh : ∀ x o, .toGossiper x o ∈ (sysRun X S Sys.init h0).posts → o.getID ≠ k
  noWipe : ∀ e ∈ h, ∀ ev, e = .net ev → ev.noWipe = true
  named : signer ≠ []
  /-- what monitors are answered, by anyone -/
  answered : ∀ x ∈ S.net.ids, ∀ i (o : GossipObj), SysEvent.mon x (.answer i (.obj o)) ∈ h → o.getID = k →
    o.verify (S.mon x).crypto = .ok → o.signer = signer ∧ view x = some o.sig
  /-- what anyone else posts to gossipers -/
  posted : ∀ x ∈ S.net.ids, ∀ clk n (o : GossipObj), SysEvent.net (.node x (clk, .recv n o)) ∈ h → o.getID = k →
    o.verify (S.net.conf x).crypto = .ok → o.signer = signer ∧ view x = some o.sig
  quiet : SysQuiet S (sysRun X S Sys.init (h0 ++ h))
  up : ∀ x ∈ S.net.ids, view x ≠ none → (sysRun X S Sys.init (h0 ++ h)).net.up x

variable {X S}

theorem answer_event (x : Str) (s : Sys) (h : List SysEvent) (i : Nat) (f : Fetched) (ha : .answer i f ∈ monHist X S x s h) :
    SysEvent.mon x (.answer i f) ∈ h := by
  induction h generalizing s with
  | nil => cases ha
  | cons e t ih =>
    rcases List.mem_append.1 ha with h1 | h1
    · cases e with
      | net _ => cases h1
      | mon y e =>
        simp only [SysEvent.monPart] at h1
        split at h1
        · rename_i hy; subst hy
          rw [List.mem_singleton.1 h1]; exact List.mem_cons_self
        · cases h1
      | arrive j clk =>
        simp only [SysEvent.monPart] at h1
        split at h1
        · split at h1 <;> simp at h1
        · cases h1
    · exact List.mem_cons_of_mem _ (ih _ h1)

theorem noWipe_hist (s : Sys) (h : List SysEvent) (hw : ∀ e ∈ h, ∀ ev, e = .net ev → ev.noWipe = true) :
    ∀ e ∈ netHist X S s h, e.noWipe = true := by
  induction h generalizing s with
  | nil => intro e he; cases he
  | cons e t ih =>
    intro ev hev
    rcases List.mem_append.1 hev with h1 | h1
    · cases e with
      | net e' => rw [List.mem_singleton.1 h1]; exact hw _ List.mem_cons_self _ rfl
      | mon _ _ => cases h1
      | arrive i clk =>
        simp only [SysEvent.netPart] at h1
        split at h1
        · rw [List.mem_singleton.1 h1]; rfl
        · cases h1
    · exact ih _ (fun e he => hw e (List.mem_cons_of_mem _ he)) ev h1

/-- What a monitor fetched, verified and knows the signer of reaches its gossiper. -/
theorem answered_shown {s : Sys} {h : List SysEvent} {x : Str} {o : GossipObj} (ha : Answered X S s h x o)
    (ht : o.type = .STH_INIT) (hv : o.verify (S.mon x).crypto = .ok) (hl : o.signer ∈ (S.mon x).allLoggers)
    (hq : (sysRun X S s h).posts = []) : ∃ clk n, .node x (clk, .recv n o) ∈ netHist X S s h := by
  obtain ⟨a, i, b, m, u, h1, h2, h3⟩ := ha
  have hstep : monStep X (S.mon x) m (.answer i (.obj o)) = some (send { m with queries := m.queries.eraseIdx i } o) := by
    simp only [monStep, h3, answerQuery, hv, processValid, ht]
    have hl' : isLogger (S.mon x) o.signer = true := by simp [isLogger, hl]
    simp [hl']
  rcases monPosts_arrives X S s h x o a _ b m _ h1 h2 hstep rfl with h | h
  · rw [hq] at h; cases h
  · exact h

/-- Whatever version of the tree head reaches a gossiper is the one its monitor and the others around it are given. -/
theorem SplitView.shown {k : GossipID} {signer : Str} {view : Str → Option Sig2} {h0 h : List SysEvent}
    (H : SplitView X S k signer view h0 h) (x : Str) (o : GossipObj)
    (hs : ShownTo S.net k (netHist X S (sysRun X S Sys.init h0) h) x o) : o.signer = signer ∧ view x = some o.sig := by
  obtain ⟨hx, hid, hv, clk, n, hm⟩ := hs
  have ht : o.type = .STH_INIT := by have := congrArg GossipID.type hid; rw [H.kind] at this; exact this
  rcases recv_source X S _ h x clk n o hm with h1 | h1 | ⟨a, e, b, m, m', h1, _, _, h4, _⟩
  · exact H.posted x hx clk n o h1 hid hv
  · exact absurd hid (H.fresh x o h1)
  · cases h4 with
    | forwarded i u kd he hq hv' hk =>
      refine H.answered x hx i o (answer_event (X := X) (S := S) x (sysRun X S Sys.init h0) h i _ ?_) hid hv'
      rw [h1, he]; simp
    | accused i clk u kd he hw hg =>
      rw [hg] at ht
      cases ht

/-- The end of a split view, for one gossiper that is still running: a conflict proof that verifies was delivered to its monitor,
or a full accusation of the logger that verifies was delivered to the monitor of a running gossiper. -/
theorem SplitView.exposed {k : GossipID} {signer : Str} {view : Str → Option Sig2} {h0 h : List SysEvent}
    (H : SplitView X S k signer view h0 h) (x y : Str) (hx : x ∈ S.net.ids) (hy : y ∈ S.net.ids) (o1 o2 : GossipObj)
    (a1 : Answered X S (sysRun X S Sys.init h0) h x o1) (a2 : Answered X S (sysRun X S Sys.init h0) h y o2)
    (i1 : o1.getID = k) (i2 : o2.getID = k) (v1 : o1.verify (S.mon x).crypto = .ok) (v2 : o2.verify (S.mon y).crypto = .ok)
    (l1 : o1.signer ∈ (S.mon x).allLoggers) (l2 : o2.signer ∈ (S.mon y).allLoggers) (hsig : o1.sig ≠ o2.sig) :
    (∀ z ∈ S.net.ids, (sysRun X S Sys.init (h0 ++ h)).net.up z →
      ((sysRun X S Sys.init (h0 ++ h)).net.node z).g.blacklist.has k.entity = true ∧
      ∃ c : GossipObj, c.type = .CON_INIT ∧ c.payload.p0 = k.entity ∧ c.verify (S.mon z).crypto = .ok ∧
        .gossip (some c) ∈ monHist X S z Sys.init (h0 ++ h)) ∨
    ∃ z ∈ S.net.ids, (sysRun X S Sys.init (h0 ++ h)).net.up z ∧ ∃ o : GossipObj, o.type = .ACC_FULL ∧ o.payload.p0 = k.entity ∧
      o.verify (S.mon z).crypto = .ok ∧ .gossip (some o) ∈ monHist X S z Sys.init (h0 ++ h) := by
  have hrun : (sysRun X S Sys.init (h0 ++ h)).net =
      nrun S.net (sysRun X S Sys.init h0).net (netHist X S (sysRun X S Sys.init h0) h) := by
    rw [sysRun_append]; exact sysRun_net X S _ h
  have hposts : (sysRun X S (sysRun X S Sys.init h0) h).posts = [] := by rw [← sysRun_append]; exact H.quiet.posts
  have ht : ∀ o : GossipObj, o.getID = k → o.type = .STH_INIT := fun o hid => by
    have := congrArg GossipID.type hid; rw [H.kind] at this; exact this
  have s1 : ShownTo S.net k (netHist X S (sysRun X S Sys.init h0) h) x o1 :=
    ⟨hx, i1, by rw [← verify_congr (H.keys x hx)]; exact v1, answered_shown a1 (ht o1 i1) v1 l1 hposts⟩
  have s2 : ShownTo S.net k (netHist X S (sysRun X S Sys.init h0) h) y o2 :=
    ⟨hy, i2, by rw [← verify_congr (H.keys y hy)]; exact v2, answered_shown a2 (ht o2 i2) v2 l2 hposts⟩
  have := C105_split_views_are_exposed_partial S.net H.mesh _ k H.kind H.start _ (noWipe_hist _ h H.noWipe) signer H.named view
    H.shown (by rw [← hrun]; exact H.quiet.net) (by rw [← hrun]; exact H.up) x y o1 o2 s1 s2 hsig
  rw [← hrun] at this
  rcases this with h1 | h1
  · left
    intro z hz hu
    obtain ⟨hb, c, hc1, hc2, hc3, hc4⟩ := h1 z hz hu
    refine ⟨hb, c, hc1, hc2, by rw [verify_congr (H.keys z hz)]; exact hc3, ?_⟩
    rcases owner_arrives X S Sys.init (h0 ++ h) z c hc4 with h2 | h2 | h2
    · cases h2
    · rw [H.quiet.posts] at h2; cases h2
    · exact h2
  · right
    obtain ⟨z, hz, hu, o, e1, e2, e3, e4⟩ := h1
    refine ⟨z, hz, hu, o, e1, e2, by rw [verify_congr (H.keys z hz)]; exact e3, ?_⟩
    rcases owner_arrives X S Sys.init (h0 ++ h) z o e4 with h2 | h2 | h2
    · cases h2
    · rw [H.quiet.posts] at h2; cases h2
    · exact h2

theorem delivered_on_file {c : MonConf L} {evs : List MonEvent} {m : MonState} (h : monRun X c initMonitor evs = some m)
    {g : GossipObj} (ht : g.type = .CON_INIT) (hd : MonEvent.gossip (some g) ∈ evs) : m.conflictPom.has g.getID = true := by
  obtain ⟨a, b, rfl⟩ := List.append_of_mem hd
  obtain ⟨s1, s2, _, h2, h3⟩ := run_split X c h
  refine (C41_never_dropped_partial X c b s2 m h3 _).1 ?_
  cases h2
  have hg := (handleGossip_stored X c s1 g (by simp [storedType, keptType, ht])).1
  rw [GoMap.has_iff]
  cases hh : (handleGossip X c s1 (some g)).conflictPom.get g.getID with
  | some v => exact ⟨v, rfl⟩
  | none =>
    exfalso
    have ht' : g.getID.type = .CON_INIT := ht
    simp only [Mon.getObject, ht', hh, Option.getD_none] at hg
    rw [← hg] at ht
    cases ht

theorem accused_on_file {c : MonConf L} {evs : List MonEvent} {m : MonState} (h : monRun X c initMonitor evs = some m)
    {g : GossipObj} (ht : g.type = .ACC_FULL) (hd : MonEvent.gossip (some g) ∈ evs) : m.accusationPom.has g.getID = true := by
  obtain ⟨a, b, rfl⟩ := List.append_of_mem hd
  obtain ⟨s1, s2, _, h2, h3⟩ := run_split X c h
  refine (C41_never_dropped_partial X c b s2 m h3 _).2 ?_
  cases h2
  have hg := (handleGossip_stored X c s1 g (by simp [storedType, keptType, ht])).1
  rw [GoMap.has_iff]
  cases hh : (handleGossip X c s1 (some g)).accusationPom.get g.getID with
  | some v => exact ⟨v, rfl⟩
  | none =>
    exfalso
    have ht' : g.getID.type = .ACC_FULL := ht
    simp only [Mon.getObject, ht', hh, Option.getD_none] at hg
    rw [← hg] at ht
    cases ht

/-- C111, the monitors' part: gossipers and monitors run together from start-up, all orders of messages, goroutines and timers, and
everybody else posts what they like (but no further version of the tree head). If a logger answers the queries of two monitors with
tree heads for one period under different signatures, then once nothing is under way every monitor whose gossiper runs has a
conflict proof against the logger on file, or the monitor of a running gossiper has a full accusation of it on file. Missing: what
C105 misses. -/
theorem C111_monitors_know_partial {k : GossipID} {signer : Str} {view : Str → Option Sig2} {h0 h : List SysEvent}
    (H : SplitView X S k signer view h0 h) (x y : Str) (hx : x ∈ S.net.ids) (hy : y ∈ S.net.ids) (o1 o2 : GossipObj)
    (a1 : Answered X S (sysRun X S Sys.init h0) h x o1) (a2 : Answered X S (sysRun X S Sys.init h0) h y o2)
    (i1 : o1.getID = k) (i2 : o2.getID = k) (v1 : o1.verify (S.mon x).crypto = .ok) (v2 : o2.verify (S.mon y).crypto = .ok)
    (l1 : o1.signer ∈ (S.mon x).allLoggers) (l2 : o2.signer ∈ (S.mon y).allLoggers) (hsig : o1.sig ≠ o2.sig) :
    let s := sysRun X S Sys.init (h0 ++ h)
    (∀ z ∈ S.net.ids, s.net.up z → ∀ m, s.mon z = some m → ∃ p, m.conflictPom.has ⟨p, .CON_INIT, k.entity⟩ = true) ∨
    ∃ z ∈ S.net.ids, s.net.up z ∧ ∀ m, s.mon z = some m → ∃ p, m.accusationPom.has ⟨p, .ACC_FULL, k.entity⟩ = true := by
  rcases H.exposed x y hx hy o1 o2 a1 a2 i1 i2 v1 v2 l1 l2 hsig with h1 | h1
  · left
    intro z hz hu m hm
    obtain ⟨_, c, hc1, hc2, _, hc4⟩ := h1 z hz hu
    rw [sysRun_mon] at hm
    refine ⟨c.period, ?_⟩
    rw [← hc2, ← hc1]
    exact delivered_on_file hm hc1 hc4
  · right
    obtain ⟨z, hz, hu, o, e1, e2, _, e4⟩ := h1
    refine ⟨z, hz, hu, fun m hm => ⟨o.period, ?_⟩⟩
    rw [sysRun_mon] at hm
    rw [← e2, ← e1]
    exact accused_on_file hm e1 e4

/-- Proofs on file against `e` are among the recent ones. -/
def RecentCons (e : Str) (m : MonState) : Prop :=
  ∀ p, m.conflictPom.has ⟨p, .CON_INIT, e⟩ = true → m.conflictDelta.has ⟨p, .CON_INIT, e⟩ = true

theorem recentCons_step {c : MonConf L} {m m' : MonState} {ev : MonEvent} (h : monStep X c m ev = some m')
    (hf : ∀ clk, ev ≠ .finish clk) (e : Str) (hm : RecentCons e m) : RecentCons e m' := by
  rcases mon_cases X c h with ⟨clk, he, rfl⟩ | ⟨q, w, t, rfl⟩ | ⟨q, w, g, _, rfl⟩ | ⟨q, w, g, _, rfl⟩ | ⟨i, k, d, _, _, rfl⟩
  · exact absurd he (hf clk)
  · exact hm
  · unfold storeObject
    cases g.type <;> try exact hm
    intro p hp
    simp only [GoMap.has_set, Bool.or_eq_true] at hp ⊢
    rcases hp with hp | hp
    · exact .inl hp
    · exact .inr (hm p hp)
  · exact hm
  · unfold fireCRV
    split <;> exact hm

theorem recentCons_run {c : MonConf L} (evs : List MonEvent) {m m' : MonState} (h : monRun X c m evs = some m')
    (hf : noFinish evs = true) (e : Str) (hm : RecentCons e m) : RecentCons e m' := by
  induction evs generalizing m with
  | nil => cases h; exact hm
  | cons ev t ih =>
    simp only [monRun] at h
    cases he : monStep X c m ev with
    | none => rw [he] at h; cases h
    | some m1 =>
      rw [he] at h
      have hne : ∀ clk, ev ≠ .finish clk := by rintro clk rfl; simp [noFinish] at hf
      have ht : noFinish t = true := by cases ev <;> first | exact hf | exact absurd rfl (hne _)
      exact ih h ht (recentCons_step he hne e hm)

theorem no_cons_yet {c : MonConf L} {evs : List MonEvent} {m : MonState} (h : monRun X c initMonitor evs = some m) (e : Str)
    (hd : ∀ ev ∈ evs, ∀ o, Delivers ev o → o.type = .CON_INIT → o.payload.p0 ≠ e) : RecentCons e m := by
  intro p hp
  exfalso
  have key : ∀ (evs : List MonEvent) (a : MonState), monRun X c a evs = some m →
      (∀ ev ∈ evs, ∀ o, Delivers ev o → o.type = .CON_INIT → o.payload.p0 ≠ e) →
      a.conflictPom.has ⟨p, .CON_INIT, e⟩ = true := by
    intro evs
    induction evs with
    | nil => intro a ha _; cases ha; exact hp
    | cons ev t ih =>
      intro a ha hd
      simp only [monRun] at ha
      cases he : monStep X c a ev with
      | none => rw [he] at ha; cases ha
      | some a1 =>
        rw [he] at ha
        have := ih a1 ha (fun ev' h' => hd ev' (List.mem_cons_of_mem _ h'))
        rcases (poms_step X c he).1 with h1 | ⟨o, hde, hto, h1⟩
        · rwa [h1] at this
        · rw [h1, GoMap.has_set, Bool.or_eq_true] at this
          rcases this with h2 | h2
          · exact absurd (congrArg GossipID.entity (of_decide_eq_true h2)).symm (hd ev (by simp) o hde hto)
          · exact h2
  have := key evs initMonitor h hd
  simp [initMonitor, GoMap.has, GoMap.get_empty] at this

/-- An accepted update leaves everybody it lists a proof against in the client's proof database. -/
theorem accepted_pom {cc : CryptoConfig L} {v : Bool} {u : ClientUpdate} {st st' : ClientState}
    (h : handleUpdate X cc v u st = (.accepted, st')) {g : GossipObj} (hg : g ∈ u.pomCONs ∨ g ∈ u.pomACCs) :
    (st'.pomDB.get g.payload.p0).isSome = true := by
  obtain ⟨_, _, rfl⟩ := (C50_accepted_iff X cc v u st st').1 h
  have key : ∀ (l : List GossipObj) (db : GoMap Str GossipObj), g ∈ l ∨ (db.get g.payload.p0).isSome = true →
      ((l.foldl recordPOM db).get g.payload.p0).isSome = true := by
    intro l
    induction l with
    | nil => intro db h; rcases h with h | h; cases h; exact h
    | cons a t ih =>
      intro db h
      refine ih _ ?_
      by_cases e : a.payload.p0 = g.payload.p0
      · right; unfold recordPOM; rw [e, GoMap.get_set_self]; rfl
      · rcases h with h | h
        · rcases List.mem_cons.1 h with h | h
          · exact absurd (congrArg (fun o => o.payload.p0) h).symm e
          · exact .inl h
        · right; unfold recordPOM; rw [GoMap.get_set_ne _ _ (fun h => e h.symm)]; exact h
  exact key _ _ (.inl (List.mem_append.2 (hg.symm)))

/-- C111, the clients' part: if in addition the monitor of `z` ends its period at `clk` without having ended one since the tree
heads appeared, and every conflict proof against the logger that it is delivered is new and names the minute of `clk`, then the
update it writes makes every client that accepts it reject all certificates relying on entries that name the logger. Missing: proofs
found or delivered after the update of their minute is written (`C111_violated_late`), entries that name another signer
(C53), loggers that vary the Signer field (C105). -/
theorem C111_clients_reject_partial {k : GossipID} {signer : Str} {view : Str → Option Sig2} {h0 h : List SysEvent}
    (H : SplitView X S k signer view h0 h) (x y : Str) (hx : x ∈ S.net.ids) (hy : y ∈ S.net.ids) (o1 o2 : GossipObj)
    (a1 : Answered X S (sysRun X S Sys.init h0) h x o1) (a2 : Answered X S (sysRun X S Sys.init h0) h y o2)
    (i1 : o1.getID = k) (i2 : o2.getID = k) (v1 : o1.verify (S.mon x).crypto = .ok) (v2 : o2.verify (S.mon y).crypto = .ok)
    (l1 : o1.signer ∈ (S.mon x).allLoggers) (l2 : o2.signer ∈ (S.mon y).allLoggers) (hsig : o1.sig ≠ o2.sig)
    (noAcc : ∀ z ∈ S.net.ids, ∀ e ∈ monHist X S z Sys.init (h0 ++ h), ∀ o, Delivers e o → o.type = .ACC_FULL → o.payload.p0 ≠ k.entity)
    (z : Str) (hz : z ∈ S.net.ids) (hu : (sysRun X S Sys.init (h0 ++ h)).net.up z) (m : MonState)
    (hm : (sysRun X S Sys.init (h0 ++ h)).mon z = some m) (clk : Clock)
    (hold : ∀ e ∈ monHist X S z Sys.init h0, ∀ o, Delivers e o → o.type = .CON_INIT → o.payload.p0 ≠ k.entity)
    (hfin : noFinish (monHist X S z (sysRun X S Sys.init h0) h) = true)
    (hmin : ∀ e ∈ monHist X S z (sysRun X S Sys.init h0) h, ∀ o, Delivers e o → o.type = .CON_INIT → o.payload.p0 = k.entity →
      o.period = clk.period) :
    ∃ m' u, monStep X (S.mon z) m (.finish clk) = some m' ∧ m'.files.get (periodIO (S.mon z) clk) = some u ∧
      ∀ cc v st st', handleUpdate X (L := L) cc v u st = (.accepted, st') → (st'.pomDB.get k.entity).isSome = true ∧
        ∀ cert, (∀ e ∈ (cert.parseExt X).loggers, e.sth.signer = k.entity) → verifyCTngExt X cc st' cert = .reject := by
  have hex := (H.exposed x y hx hy o1 o2 a1 a2 i1 i2 v1 v2 l1 l2 hsig).resolve_right (by
    rintro ⟨w, hw, _, o, e1, e2, _, e4⟩
    exact noAcc w hw _ e4 o (.inl rfl) e1 e2)
  obtain ⟨_, c, hc1, hc2, _, hc4⟩ := hex z hz hu
  rw [sysRun_mon] at hm
  have hm' : monRun X (S.mon z) initMonitor (monHist X S z Sys.init (h0 ++ h)) = some m := hm
  have hon := delivered_on_file hm' hc1 hc4
  rw [monHist_append] at hc4 hm'
  rw [monRun_append] at hm'
  obtain ⟨m0, hm0, hm1⟩ := Option.bind_eq_some_iff.1 hm'
  have hrec := recentCons_run _ hm1 hfin k.entity (no_cons_yet hm0 k.entity hold)
  have hid : c.getID = ⟨c.period, .CON_INIT, k.entity⟩ := by rw [← hc2, ← hc1]; rfl
  rw [hid] at hon
  have hdel := hrec c.period hon
  obtain ⟨g, hg⟩ := (GoMap.has_iff _ _).1 hdel
  have inv := storesInv_run X (S.mon z) (fun _ => True) (fun _ _ => trivial) _ (storesInv_init _) (fun _ _ => trivial) hm
  have hgid := (inv.conD _ _ hg).1
  obtain ⟨u, hfile, _, _, _, _, _, h3, _⟩ := C43_update_exact X (S.mon z) _ m _ clk hm rfl
  refine ⟨_, u, rfl, hfile, ?_⟩
  have hper : c.period = clk.period := by
    rcases List.mem_append.1 hc4 with h1 | h1
    · exact absurd hc2 (hold _ h1 c (.inl rfl) hc1)
    · exact hmin _ h1 c (.inl rfl) hc1 hc2
  have hgl : g ∈ u.pomCONs := (h3 g).2 ⟨by rw [← hgid]; exact hg, by rw [← hper]; exact (congrArg GossipID.period hgid).symm⟩
  have hgp : g.payload.p0 = k.entity := (congrArg GossipID.entity hgid).symm
  intro cc v st st' hacc
  have hpom := accepted_pom hacc (.inl hgl)
  rw [hgp] at hpom
  refine ⟨hpom, fun cert hcert => (C53_named_signer_partial X cc st' cert).2 fun e he => ?_⟩
  rw [hcert e he]; exact hpom

/-- Proofs in updates were delivered to the monitor. -/
theorem listed_delivered {c : MonConf L} {evs : List MonEvent} {u : ClientUpdate} (hu : Published X c evs u) {g : GossipObj}
    (hg : g ∈ u.pomCONs ∨ g ∈ u.pomACCs) : (g.type = .CON_INIT ∨ g.type = .ACC_FULL) ∧ ∃ e ∈ evs, Delivers e g := by
  obtain ⟨a, clk, b, s1, s2, rfl, h1, h2, h3⟩ := hu
  obtain ⟨u', hu', _, _, _, _, _, k1, k2⟩ := C43_update_exact X c a s1 s2 clk h1 h2
  cases h3.symm.trans hu'
  have key : ∀ (evs : List MonEvent) (s s' : MonState), StoresInv (fun g => ∃ e ∈ a, Delivers e g) s → (∀ e ∈ evs, e ∈ a) →
      monRun X c s evs = some s' → StoresInv (fun g => ∃ e ∈ a, Delivers e g) s' := by
    intro evs
    induction evs with
    | nil => intro s s' h _ hr; cases hr; exact h
    | cons e t ih =>
      intro s s' h hm hr
      simp only [monRun] at hr
      cases he : monStep X c s e with
      | none => rw [he] at hr; cases hr
      | some s1 =>
        rw [he] at hr
        refine ih s1 s' ?_ (fun e h => hm e (List.mem_cons_of_mem _ h)) hr
        refine storesInv_stepD X c _ h (fun g hg => ⟨e, hm e (by simp), .inl hg⟩) ?_ he
        intro g i hg _
        exact ⟨e, hm e (by simp), .inr ⟨i, hg⟩⟩
  have inv := key a initMonitor s1 (storesInv_init _) (fun _ h => h) h1
  rcases hg with hg | hg
  · obtain ⟨_, ⟨e, he, hd⟩, ht⟩ := inv.conD _ _ ((k1 g).1 hg).1
    exact ⟨.inl ht, e, List.mem_append_left _ he, hd⟩
  · obtain ⟨_, ⟨e, he, hd⟩, ht⟩ := inv.accD _ _ ((k2 g).1 hg).1
    exact ⟨.inr ht, e, List.mem_append_left _ he, hd⟩

deriving instance DecidableEq for MonEvent

namespace Ref

/-- Two gossipers with a monitor each. -/
def sysConf : SysConf lib := ⟨mesh, fun x => { monConf with crypto := conf x }⟩

/-- Both monitors query L1, which answers with one tree head here and the other there; the gossipers exchange them. -/
def sysSplit : List SysEvent :=
  [.mon (go!"G1") (.query clk), .mon (go!"G2") (.query clk), .mon (go!"G1") (.answer 0 (.obj sth)), .mon (go!"G2") (.answer 0 (.obj sth')),
   .arrive 0 clk, .arrive 0 clk] ++ ((splitHist sth sth').drop 2).map .net

/-- What the gossipers post then reaches the monitors. -/
def sysDone : List SysEvent := sysSplit ++ List.replicate 4 (.arrive 0 clk)

/-- What the gossipers post then reaches the monitors, after they have written their updates. -/
def sysLate : List SysEvent :=
  sysSplit ++ [.mon (go!"G1") (.finish clk), .mon (go!"G2") (.finish clk)] ++ List.replicate 4 (.arrive 0 clk)

def sysView (x : Str) : Option Sig2 := if x = go!"G1" then some sth.sig else some sth'.sig

/-- A post from outside. -/
def _root_.CTng.NEvent.isRecv : NEvent → Bool
  | .node _ (_, .recv _ _) => true
  | _ => false

theorem sysSplit_events {e : SysEvent} (h : e ∈ sysSplit) :
    (∃ x, e = .mon x (.query clk)) ∨ e = .mon (go!"G1") (.answer 0 (.obj sth)) ∨ e = .mon (go!"G2") (.answer 0 (.obj sth')) ∨
    e = .arrive 0 clk ∨ ∃ ev, e = .net ev ∧ ev.noWipe = true ∧ ∀ x clk n o, ev ≠ .node x (clk, .recv n o) := by
  unfold sysSplit at h
  rcases List.mem_append.1 h with h | h
  · simp at h
    rcases h with h | h | h | h | h
    · exact .inl ⟨_, h⟩
    · exact .inl ⟨_, h⟩
    · exact .inr (.inl h)
    · exact .inr (.inr (.inl h))
    · exact .inr (.inr (.inr (.inl h)))
  · obtain ⟨ev, hev, rfl⟩ := List.mem_map.1 h
    have hall : (((splitHist sth sth').drop 2).all fun ev => ev.noWipe && !ev.isRecv) = true := by decide +kernel
    have := List.all_eq_true.1 hall ev hev
    rw [Bool.and_eq_true] at this
    refine .inr (.inr (.inr (.inr ⟨ev, rfl, this.1, ?_⟩)))
    rintro x clk n o rfl
    exact absurd this.2 (by simp [NEvent.isRecv])

theorem sysSplit_view (h : List SysEvent)
    (hev : ∀ e ∈ h, e ∈ sysSplit ∨ e = .arrive 0 clk ∨ ∃ x, e = .mon x (.finish clk))
    (hq : quietCheck mesh (sysRun xlib sysConf Sys.init h).net = true) (hp : (sysRun xlib sysConf Sys.init h).posts = [])
    (hu : ∀ x ∈ mesh.ids, (sysRun xlib sysConf Sys.init h).net.up x) :
    SplitView xlib sysConf sth.getID (go!"L1") sysView [] h where
  mesh := mesh_ok
  keys := fun _ _ => ⟨rfl, rfl, fun _ => rfl, fun _ => rfl⟩
  kind := rfl
  start := splitStart
  fresh := by intro x o h; cases h
  noWipe := by
    rintro e he ev rfl
    rcases hev _ he with h | h | ⟨_, h⟩
    · rcases sysSplit_events h with ⟨_, h⟩ | h | h | h | ⟨ev, h, hw, _⟩ <;> cases h
      exact hw
    · cases h
    · cases h
  named := by decide
  answered := by
    intro x _ i o he _ _
    rcases hev _ he with h | h | ⟨_, h⟩
    · rcases sysSplit_events h with ⟨_, h⟩ | h | h | h | ⟨ev, h, hw, _⟩ <;> cases h
      · exact ⟨rfl, rfl⟩
      · exact ⟨rfl, rfl⟩
    · cases h
    · cases h
  posted := by
    intro x _ clk n o he _ _
    rcases hev _ he with h | h | ⟨_, h⟩
    · rcases sysSplit_events h with ⟨_, h⟩ | h | h | h | ⟨ev, h, _, hn⟩ <;> cases h
      exact absurd rfl (hn _ _ _ _)
    · cases h
    · cases h
  quiet := ⟨quiet_of_check hq, hp⟩
  up := fun x hx _ => hu x hx

theorem up_of_all {s : Net} (h : (mesh.ids.all fun x => !(s.node x).g.crashed) = true) : ∀ x ∈ mesh.ids, s.up x := by
  intro x hx
  have := List.all_eq_true.1 h x hx
  simpa [Net.up] using this

theorem sysDone_up : ∀ x ∈ mesh.ids, (sysRun xlib sysConf Sys.init sysDone).net.up x := up_of_all (by decide +kernel)

theorem sysDone_view : SplitView xlib sysConf sth.getID (go!"L1") sysView [] sysDone :=
  sysSplit_view sysDone (by
    intro e he
    rcases List.mem_append.1 he with h | h
    · exact .inl h
    · exact .inr (.inl (List.mem_replicate.1 h).2)) (by decide +kernel) (by decide +kernel) (up_of_all (by decide +kernel))

theorem sysLate_view : SplitView xlib sysConf sth.getID (go!"L1") sysView [] sysLate :=
  sysSplit_view sysLate (by
    intro e he
    rcases List.mem_append.1 he with h | h
    · rcases List.mem_append.1 h with h | h
      · exact .inl h
      · simp at h
        rcases h with h | h <;> exact .inr (.inr ⟨_, h⟩)
    · exact .inr (.inl (List.mem_replicate.1 h).2)) (by decide +kernel) (by decide +kernel) (up_of_all (by decide +kernel))

theorem monHist_done1 : monHist xlib sysConf (go!"G1") Sys.init sysDone =
    [.query clk, .answer 0 (.obj sth), .gossip (some sth), .gossip (some (generateCON clk sth sth'))] := by decide +kernel

theorem monHist_done2 : monHist xlib sysConf (go!"G2") Sys.init sysDone =
    [.query clk, .answer 0 (.obj sth'), .gossip (some sth'), .gossip (some (generateCON clk sth' sth))] := by decide +kernel

theorem monHist_late1 : monHist xlib sysConf (go!"G1") Sys.init sysLate =
    [.query clk, .answer 0 (.obj sth), .finish clk, .gossip (some sth), .gossip (some (generateCON clk sth sth'))] := by decide +kernel

theorem monHist_late2 : monHist xlib sysConf (go!"G2") Sys.init sysLate =
    [.query clk, .answer 0 (.obj sth'), .finish clk, .gossip (some sth'), .gossip (some (generateCON clk sth' sth))] := by decide +kernel

theorem answered1 {h : List SysEvent} {b : List MonEvent}
    (hh : monHist xlib sysConf (go!"G1") Sys.init h = .query clk :: .answer 0 (.obj sth) :: b) :
    Answered xlib sysConf Sys.init h (go!"G1") sth :=
  ⟨[.query clk], 0, b, startQueries (sysConf.mon (go!"G1")) clk initMonitor, _, hh, rfl, rfl⟩

theorem answered2 {h : List SysEvent} {b : List MonEvent}
    (hh : monHist xlib sysConf (go!"G2") Sys.init h = .query clk :: .answer 0 (.obj sth') :: b) :
    Answered xlib sysConf Sys.init h (go!"G2") sth' :=
  ⟨[.query clk], 0, b, startQueries (sysConf.mon (go!"G2")) clk initMonitor, _, hh, rfl, rfl⟩

theorem mem_mesh {z : Str} (h : z ∈ mesh.ids) : z = go!"G1" ∨ z = go!"G2" := by
  simpa [mesh] using h

theorem accs_done (z : Str) (hz : z ∈ mesh.ids) (e : MonEvent) (he : e ∈ monHist xlib sysConf z Sys.init sysDone) (o : GossipObj)
    (hd : Delivers e o) : o.type ≠ .ACC_FULL ∧ (o.type = .CON_INIT → o.period = clk.period) := by
  have key : ∀ a b : GossipObj, a.type = .STH_INIT → b.type = .CON_INIT → b.period = clk.period →
      e ∈ [MonEvent.query clk, .answer 0 (.obj a), .gossip (some a), .gossip (some b)] →
      o.type ≠ .ACC_FULL ∧ (o.type = .CON_INIT → o.period = clk.period) := by
    intro a b ha hb hp hm
    simp only [List.mem_cons, List.not_mem_nil, or_false] at hm
    rcases hm with rfl | rfl | rfl | rfl <;> rcases hd with h | ⟨_, h⟩ <;> cases h <;> simp_all
  rcases mem_mesh hz with rfl | rfl
  · rw [monHist_done1] at he; exact key _ _ rfl rfl rfl he
  · rw [monHist_done2] at he; exact key _ _ rfl rfl rfl he

/-- Every monitor of the two knows. -/
example (z : Str) (hz : z ∈ mesh.ids) (m : MonState) (hm : (sysRun xlib sysConf Sys.init sysDone).mon z = some m) :
    ∃ p, m.conflictPom.has ⟨p, .CON_INIT, go!"L1"⟩ = true ∨ ∃ w p, w ∈ mesh.ids ∧
      ∀ m', (sysRun xlib sysConf Sys.init sysDone).mon w = some m' → m'.accusationPom.has ⟨p, .ACC_FULL, go!"L1"⟩ = true := by
  have := C111_monitors_know_partial sysDone_view (go!"G1") (go!"G2") (by decide) (by decide) sth sth' (answered1 monHist_done1)
    (answered2 monHist_done2) rfl (by decide +kernel) (by decide +kernel) (by decide +kernel) (by decide) (by decide) (by decide +kernel)
  rw [List.nil_append] at this
  rcases this with h | ⟨w, hw, _, h⟩
  · obtain ⟨p, hp⟩ := h z hz (sysDone_up z hz) m hm
    exact ⟨p, .inl hp⟩
  · cases hm' : (sysRun xlib sysConf Sys.init sysDone).mon w with
    | none => exact ⟨[], .inr ⟨w, [], hw, by intro m' h'; rw [hm'] at h'; cases h'⟩⟩
    | some m' =>
      obtain ⟨p, hp⟩ := h m' hm'
      exact ⟨[], .inr ⟨w, p, hw, by intro m'' h'; rw [hm'] at h'; cases h'; exact hp⟩⟩

/-- The monitor of G2 ends its period in the same minute: clients of its update reject everything that relies on L1. -/
example (m : MonState) (hm : (sysRun xlib sysConf Sys.init sysDone).mon (go!"G2") = some m) :
    ∃ m' u, monStep xlib (sysConf.mon (go!"G2")) m (.finish clk) = some m' ∧
      m'.files.get (periodIO (sysConf.mon (go!"G2")) clk) = some u ∧
      ∀ cc v st st', handleUpdate xlib (L := lib) cc v u st = (.accepted, st') → (st'.pomDB.get (go!"L1")).isSome = true ∧
        ∀ cert, (∀ e ∈ (cert.parseExt xlib).loggers, e.sth.signer = go!"L1") → verifyCTngExt xlib cc st' cert = .reject :=
  C111_clients_reject_partial sysDone_view (go!"G1") (go!"G2") (by decide) (by decide) sth sth' (answered1 monHist_done1)
    (answered2 monHist_done2) rfl (by decide +kernel) (by decide +kernel) (by decide +kernel) (by decide) (by decide)
    (by decide +kernel) (fun z hz e he o hd ht => absurd ht (accs_done z hz e he o hd).1) (go!"G2") (by decide)
    (by rw [List.nil_append]; exact sysDone_up _ (by decide)) m (by rw [List.nil_append]; exact hm) clk (by intro e he; cases he)
    (by
      show noFinish (monHist xlib sysConf (go!"G2") Sys.init sysDone) = true
      rw [monHist_done2]; rfl)
    (fun e he o hd ht _ => (accs_done (go!"G2") (by decide) e he o hd).2 ht)

end Ref

open Ref in
/-- C111 fails when the proofs arrive late: all of the above happens, but the monitors end their period (20 seconds before the minute
is over) before the gossipers' posts arrive. Both monitors have the conflict proof on file. The next period ends in the next
minute, and whatever happens then, as long as no other proof against L1 comes up, no update either monitor ever publishes
carries a proof against L1. -/
theorem C111_violated_late :
    SplitView xlib sysConf sth.getID (go!"L1") sysView [] sysLate ∧
    Answered xlib sysConf Sys.init sysLate (go!"G1") sth ∧ Answered xlib sysConf Sys.init sysLate (go!"G2") sth' ∧
    sth.sig ≠ sth'.sig ∧
    ∀ z ∈ mesh.ids, ∃ p : GossipObj, p.type = .CON_INIT ∧ p.payload.p0 = go!"L1" ∧
      (∃ m, (sysRun xlib sysConf Sys.init sysLate).mon z = some m ∧ m.conflictPom.get p.getID = some p) ∧
      ∀ (post : List MonEvent) (s : MonState),
        monRun xlib (sysConf.mon z) initMonitor (monHist xlib sysConf z Sys.init sysLate ++ .finish clk06 :: post) = some s →
        (∀ e ∈ post, ∀ o, Delivers e o → o.type = .CON_INIT ∨ o.type = .ACC_FULL → o.payload.p0 = go!"L1" → e = .gossip (some p)) →
        ∀ u, Published xlib (sysConf.mon z) (monHist xlib sysConf z Sys.init sysLate ++ .finish clk06 :: post) u →
          ∀ g, g ∈ u.pomCONs ∨ g ∈ u.pomACCs → g.payload.p0 ≠ go!"L1" := by
  refine ⟨sysLate_view, answered1 monHist_late1, answered2 monHist_late2, by decide +kernel, ?_⟩
  have key : ∀ (z : Str) (a p : GossipObj), monHist xlib sysConf z Sys.init sysLate =
      [.query clk, .answer 0 (.obj a), .finish clk, .gossip (some a), .gossip (some p)] → a.type = .STH_INIT →
      p.type = .CON_INIT → p.payload.p0 = go!"L1" → p.period = clk.period →
      ∀ (post : List MonEvent) (s : MonState),
        monRun xlib (sysConf.mon z) initMonitor (monHist xlib sysConf z Sys.init sysLate ++ .finish clk06 :: post) = some s →
        (∀ e ∈ post, ∀ o, Delivers e o → o.type = .CON_INIT ∨ o.type = .ACC_FULL → o.payload.p0 = go!"L1" → e = .gossip (some p)) →
        ∀ u, Published xlib (sysConf.mon z) (monHist xlib sysConf z Sys.init sysLate ++ .finish clk06 :: post) u →
          ∀ g, g ∈ u.pomCONs ∨ g ∈ u.pomACCs → g.payload.p0 ≠ go!"L1" := by
    intro z a p hh ha hp hp0 hper post s hrun hpost u hu g hg hgl
    rw [hh] at hrun hu
    have hgp : g = p := by
      obtain ⟨ht, e, he, hd⟩ := listed_delivered hu hg
      simp only [List.mem_append, List.mem_cons, List.not_mem_nil, or_false] at he
      rcases he with (rfl | rfl | rfl | rfl | rfl) | rfl | he
      · rcases hd with h | ⟨_, h⟩ <;> cases h
      · rcases hd with h | ⟨_, h⟩ <;> cases h
        rw [ha] at ht; rcases ht with h | h <;> cases h
      · rcases hd with h | ⟨_, h⟩ <;> cases h
      · rcases hd with h | ⟨_, h⟩ <;> cases h
        rw [ha] at ht; rcases ht with h | h <;> cases h
      · rcases hd with h | ⟨_, h⟩ <;> cases h
        rfl
      · rcases hd with h | ⟨_, h⟩ <;> cases h
      · rcases hpost e he g hd ht hgl with rfl
        rcases hd with h | ⟨_, h⟩ <;> cases h
        rfl
    subst hgp
    refine C78_violated_late_proofs xlib (sysConf.mon z) [.query clk, .answer 0 (.obj a), .finish clk, .gossip (some a)] [] post g clk06 s
      hrun (.inl hp) (by rw [hper]; decide) rfl ?_ ?_ u hu (hg.elim (fun h => .inr (.inr (.inl h))) (fun h => .inr (.inr (.inr h))))
    · intro e he hd
      simp only [List.mem_cons, List.not_mem_nil, or_false] at he
      rcases he with rfl | rfl | rfl | rfl <;> rcases hd with h | ⟨_, h⟩ <;> cases h <;> rw [ha] at hp <;> cases hp
    · intro e he o hd hid
      exact hpost e he o hd (.inl ((congrArg GossipID.type hid : o.type = g.type).trans hp))
        ((congrArg GossipID.entity hid : o.payload.p0 = g.payload.p0).trans hp0)
  intro z hz
  rcases mem_mesh hz with rfl | rfl
  · refine ⟨generateCON clk sth sth', rfl, rfl, ?_, key _ sth _ monHist_late1 rfl rfl rfl rfl⟩
    rw [sysRun_mon, monHist_late1]
    exact ⟨_, rfl, by decide +kernel⟩
  · refine ⟨generateCON clk sth' sth, rfl, rfl, ?_, key _ sth' _ monHist_late2 rfl rfl rfl rfl⟩
    rw [sysRun_mon, monHist_late2]
    exact ⟨_, rfl, by decide +kernel⟩

end CTng
