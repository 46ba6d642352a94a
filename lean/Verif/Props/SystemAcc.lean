import Verif.Props.System
import Verif.Proofs.NetworkConcShown
/-
C114: from the entity that stays silent to the certificates clients reject. C92: accusations posted to gossipers.
-/
set_option autoImplicit false

namespace CTng
open Mon Client

variable {L : Lib}

/-! ### C92 for accusations posted to gossipers -/

/-- C92, from the posts: in a round as in `C92_distinct_fragments_partial`, once nothing is under way, if an accusation of the entity
that verifies was posted to each of at least T gossipers that are still running, then every running gossiper has blacklisted
the entity. Missing: runs in which a fragment is counted twice (`C92_violated_by_concurrent_duplicates`). -/
theorem C92_posted_accusations_partial {N : NetConf L} {pub : L.BlsSec → L.BlsPub} {R : Round} (hN : NetOK N pub R)
    (hk : R.kind = .acc) (T : Int) (hT : ∀ x ∈ N.ids, (N.conf x).crypto.threshold = T)
    (hid : ∀ x ∈ N.ids, ∀ y ∈ N.ids, (N.conf x).crypto.selfID = (N.conf y).crypto.selfID → x = y)
    (s : Net) (hs : CRoundStart N pub R s)
    (hs0 : ∀ x ∈ N.ids, s.up x → (s.node x).g.blacklist.has R.pay.p0 = false)
    (hs1 : ∀ m ∈ s.flight, m.dst ∈ N.ids → ∀ q, m.body = .obj q → q.type = .ACC_FULL → q.payload.p0 ≠ R.pay.p0)
    (es : List NEvent) (hw : ∀ e ∈ es, e.noWipe = true) (he : ∀ e ∈ es, e.ok N pub R) (hf : ∀ e ∈ es, e.noFull R)
    (hq : Quiet N (nrun N s es)) (hd : DistinctFrags N R (nrun N s es))
    (xs : List Str) (hn : xs.Nodup) (hlen : T ≤ (xs.length : Int))
    (hxs : ∀ x ∈ xs, x ∈ N.ids ∧ (nrun N s es).up x ∧ ∃ (o : GossipObj) (clk : Clock) (n : Int),
      o.getID = ⟨R.period, .ACC_INIT, R.pay.p0⟩ ∧ o.verify (N.conf x).crypto = .ok ∧ NEvent.node x (clk, .recv n o) ∈ es)
    (y : Str) (hy : y ∈ N.ids) (huy : (nrun N s es).up y) : ((nrun N s es).node y).g.blacklist.has R.pay.p0 = true := by
  refine acc_spreads hN hk T hT hid s hs hs0 hs1 es hw he hf hq hd xs hn hlen (fun x hx => ?_) y hy huy
  obtain ⟨hx1, hx2, o, clk, n, hid, hv, hm⟩ := hxs x hx
  refine ⟨hx1, hx2, ?_⟩
  have hk0 : R.key0 = o.getID := by rw [hid]; simp [Round.key0, hk, Kind.init]
  rcases shown_run hN hs.reach (hs.inv hN) es hw he hx1 (congrArg GossipID.type hid) (congrArg GossipID.entity hid) hv
    (.inl ⟨clk, n, hm⟩) hx2 with h | h | ⟨f, _, h⟩
  · exact .inl h
  · exact .inr (by rw [hk0]; exact h)
  · exact absurd h (not_under (hq.idle x hx1 hx2) _)

variable (X : XLib) (S : SysConf L)

/-! ### Specification -/

/-- The statement "`e` was silent in period `p`", which the gossipers sign. -/
def accOf (p e : Str) : Round := ⟨.acc, p, ⟨e, [], []⟩⟩

/-- A waiting time of the monitor of `x` for entity `e` ends at `clk` in this history; the monitor has no statement of `e` for the
minute and no proof against it. -/
def Silent (s : Sys) (h : List SysEvent) (x e : Str) : Prop :=
  ∃ a i clk b m k, monHist X S x s h = a ++ .wait i clk :: b ∧ ((s.mon x).bind fun m => monRun X (S.mon x) m a) = some m ∧
    m.waits[i]? = some (e, k) ∧ m.temp.get ⟨clk.period, k.initType, e⟩ = none ∧
    m.accusationPom.get ⟨clk.period, .ACC_FULL, e⟩ = none ∧ m.conflictPom.get ⟨go!"0", .CON_INIT, e⟩ = none

/-- The period `p`, from start-up: the history `h0` up to a moment at which no gossiper has heard an accusation of `e`, and the
history `h` after it. -/
structure AccPeriod (pub : L.BlsSec → L.BlsPub) (p e : Str) (h0 h : List SysEvent) : Prop where
  net : NetOK S.net pub (accOf p e)
  keys : ∀ x ∈ S.net.ids, SameVerify (S.mon x).crypto (S.net.conf x).crypto
  start : CRoundStart S.net pub (accOf p e) (sysRun X S Sys.init h0).net
  clean : ∀ x ∈ S.net.ids, (sysRun X S Sys.init h0).net.up x → ((sysRun X S Sys.init h0).net.node x).g.blacklist.has e = false
  noFulls : ∀ m ∈ (sysRun X S Sys.init h0).net.flight, m.dst ∈ S.net.ids → ∀ q, m.body = .obj q → q.type = .ACC_FULL → q.payload.p0 ≠ e
  fresh : ∀ x o, .toGossiper x o ∈ (sysRun X S Sys.init h0).posts → o.payload.p0 = e → o.type = .STH_INIT ∨ o.type = .REV_INIT
  noWipe : ∀ ev ∈ h, ∀ ne, ev = .net ne → ne.noWipe = true
  /-- waiting times end in the minute `p` -/
  minute : ∀ x i clk, SysEvent.mon x (.wait i clk) ∈ h → clk.period = p
  /-- what anyone else posts to gossipers about `e`: no accusation with another content that verifies, no forged signature of a
  gossiper, no full accusation -/
  posted : ∀ x clk n (o : GossipObj), SysEvent.net (.node x (clk, .recv n o)) ∈ h →
    MsgOK (S.net.conf x).crypto pub (accOf p e) o ∧ (o.type = .ACC_FULL → o.payload.p0 ≠ e)
  quiet : SysQuiet S (sysRun X S Sys.init (h0 ++ h))
  /-- no gossiper has counted a signature twice -/
  distinct : DistinctFrags S.net (accOf p e) (sysRun X S Sys.init (h0 ++ h)).net

/-- The gossipers are told apart by name and want `T` signatures; monitors sign with a key that their gossiper knows. -/
structure Signers (rpub : L.RsaPriv → L.RsaPub) (T : Int) : Prop where
  threshold : ∀ x ∈ S.net.ids, (S.net.conf x).crypto.threshold = T
  names : ∀ x ∈ S.net.ids, ∀ y ∈ S.net.ids, (S.net.conf x).crypto.selfID = (S.net.conf y).crypto.selfID → x = y
  rsa : L.RsaLaws rpub
  own : ∀ x ∈ S.net.ids, OwnKey rpub (S.mon x).crypto
  scheme : ∀ x ∈ S.net.ids, (S.net.conf x).crypto.signScheme = go!"rsa"
  known : ∀ x ∈ S.net.ids, (S.net.conf x).crypto.signPublicMap.get (S.mon x).crypto.selfID = some (rpub (S.mon x).crypto.signSecretKey)

variable {X S}

/-! ### Lemmas -/

theorem wait_event (x : Str) (s : Sys) (h : List SysEvent) (i : Nat) (clk : Clock) (ha : .wait i clk ∈ monHist X S x s h) :
    SysEvent.mon x (.wait i clk) ∈ h := by
  induction h generalizing s with
  | nil => cases ha
  | cons e t ih =>
    rcases List.mem_append.1 ha with h1 | h1
    · cases e with
      | net _ => cases h1
      | mon y e =>
        simp only [SysEvent.monPart] at h1
        split at h1
        · rename_i hy; subst hy
          rw [List.mem_singleton.1 h1]; exact List.mem_cons_self
        · cases h1
      | arrive j clk =>
        simp only [SysEvent.monPart] at h1
        split at h1
        · split at h1 <;> simp at h1
        · cases h1
    · exact List.mem_cons_of_mem _ (ih _ h1)

/-- The accusation of a monitor reaches its gossiper. -/
theorem silent_shown {s : Sys} {h : List SysEvent} {x e : Str} (ha : Silent X S s h x e)
    (hq : (sysRun X S s h).posts = []) :
    ∃ i wclk, SysEvent.mon x (.wait i wclk) ∈ h ∧ ∃ clk n, .node x (clk, .recv n (accusation (S.mon x) wclk e)) ∈ netHist X S s h := by
  obtain ⟨a, i, wclk, b, m, k, h1, h2, h3, h4, h5, h6⟩ := ha
  obtain ⟨m', hs, hsent⟩ := C45_silence_is_accused X (S.mon x) m i wclk e k h3 h5 h6 h4
  refine ⟨i, wclk, wait_event (X := X) (S := S) x s h i wclk (by rw [h1]; simp), ?_⟩
  rcases monPosts_arrives X S s h x _ a _ b m m' h1 h2 hs hsent with h | h
  · rw [hq] at h; cases h
  · exact h

theorem MsgOK.of_init {c : CryptoConfig L} {pub : L.BlsSec → L.BlsPub} {p e : Str} {o : GossipObj}
    (h : o.payload.p0 = e → o.type = .STH_INIT ∨ o.type = .REV_INIT) : MsgOK c pub (accOf p e) o := by
  refine ⟨?_, ?_, ?_⟩
  · intro ht _ hp
    rcases h hp with h | h <;> rw [h] at ht <;> cases ht
  · intro ht hp
    rcases h hp with h | h <;> rw [h] at ht <;> cases ht
  · intro ht _ hp
    rcases h hp with h | h <;> rw [h] at ht <;> cases ht

/-- Whatever reaches a gossiper in the period is no obstacle. -/
theorem AccPeriod.arriving {pub : L.BlsSec → L.BlsPub} {p e : Str} {h0 h : List SysEvent} (H : AccPeriod X S pub p e h0 h) (x : Str)
    (clk : Clock) (n : Int) (o : GossipObj)
    (hm : NEvent.node x (clk, .recv n o) ∈ netHist X S (sysRun X S Sys.init h0) h) :
    MsgOK (S.net.conf x).crypto pub (accOf p e) o ∧ (o.type = .ACC_FULL → o.payload.p0 ≠ e) := by
  rcases recv_source X S _ h x clk n o hm with h1 | h1 | ⟨a, ev, b, m, m', h1, _, _, h4, _⟩
  · exact H.posted x clk n o h1
  · have := H.fresh x o h1
    refine ⟨.of_init this, fun ht hp => ?_⟩
    rcases this hp with h | h <;> rw [h] at ht <;> cases ht
  · cases h4 with
    | forwarded i u kd he hq hv' hk =>
      have hty : o.type = .STH_INIT ∨ o.type = .REV_INIT := hk.imp (·.1) (·.1)
      refine ⟨.of_init fun _ => hty, fun ht _ => ?_⟩
      rcases hty with h | h <;> rw [h] at ht <;> cases ht
    | accused i wclk u kd he hw hg _ _ _ =>
      have hwm : SysEvent.mon x (.wait i wclk) ∈ h :=
        wait_event (X := X) (S := S) x (sysRun X S Sys.init h0) h i wclk (by rw [h1, he]; simp)
      have hper := H.minute x i wclk hwm
      subst hg
      refine ⟨⟨fun _ _ hp => ?_, ?_, ?_⟩, ?_⟩
      · have hue : u = e := hp
        subst hue
        exact ⟨rfl, hper⟩
      · intro h; cases h
      · intro h; cases h
      · intro h; cases h

/-- The end of such a period: every running gossiper has blacklisted the entity, and its monitor was delivered a proof. -/
theorem AccPeriod.exposed {pub : L.BlsSec → L.BlsPub} {rpub : L.RsaPriv → L.RsaPub} {T : Int} {p e : Str} {h0 h : List SysEvent}
    (H : AccPeriod X S pub p e h0 h) (W : Signers S rpub T) (xs : List Str) (hn : xs.Nodup) (hlen : T ≤ (xs.length : Int))
    (hxs : ∀ x ∈ xs, x ∈ S.net.ids ∧ (sysRun X S Sys.init (h0 ++ h)).net.up x ∧ Silent X S (sysRun X S Sys.init h0) h x e)
    (z : Str) (hz : z ∈ S.net.ids) (hu : (sysRun X S Sys.init (h0 ++ h)).net.up z) :
    ((sysRun X S Sys.init (h0 ++ h)).net.node z).g.blacklist.has e = true ∧
    ∃ o : GossipObj, (o.type = .CON_INIT ∨ o.type = .ACC_FULL) ∧ o.payload.p0 = e ∧ o.verify (S.mon z).crypto = .ok ∧
      .gossip (some o) ∈ monHist X S z Sys.init (h0 ++ h) := by
  have hrun : (sysRun X S Sys.init (h0 ++ h)).net =
      nrun S.net (sysRun X S Sys.init h0).net (netHist X S (sysRun X S Sys.init h0) h) := by
    rw [sysRun_append]; exact sysRun_net X S _ h
  have hposts : (sysRun X S (sysRun X S Sys.init h0) h).posts = [] := by rw [← sysRun_append]; exact H.quiet.posts
  have hok : ∀ ev ∈ netHist X S (sysRun X S Sys.init h0) h, ev.ok S.net pub (accOf p e) ∧ ev.noFull (accOf p e) := by
    intro ev hev
    cases ev with
    | deliver i clk => exact ⟨trivial, trivial⟩
    | node x ce =>
      obtain ⟨clk, ce⟩ := ce
      refine ⟨fun n o hce => ?_, fun n o hce => ?_⟩ <;> simp only at hce <;> subst hce
      · exact (H.arriving x clk n o hev).1
      · exact (H.arriving x clk n o hev).2
  have hbl : ((sysRun X S Sys.init (h0 ++ h)).net.node z).g.blacklist.has e = true := by
    rw [hrun]
    refine C92_posted_accusations_partial H.net rfl T W.threshold W.names _ H.start H.clean H.noFulls _ (noWipe_hist _ h H.noWipe)
      (fun ev hev => (hok ev hev).1) (fun ev hev => (hok ev hev).2) (by rw [← hrun]; exact H.quiet.net)
      (by rw [← hrun]; exact H.distinct) xs hn hlen ?_ z hz (by rw [← hrun]; exact hu)
    intro x hx
    obtain ⟨hx1, hx2, hx3⟩ := hxs x hx
    obtain ⟨i, wclk, hw, clk, n, hm⟩ := silent_shown hx3 hposts
    refine ⟨hx1, by rw [← hrun]; exact hx2, _, clk, n, ?_, ?_, hm⟩
    · simp only [accusation, GossipObj.getID, H.minute x i wclk hw]; rfl
    · exact accusation_verifies (S.mon x) H.net.json rpub W.rsa (W.own x hx1) _ (W.scheme x hx1) (W.known x hx1) wclk e H.net.entity
  refine ⟨hbl, ?_⟩
  have hreach : NReach S.net (sysRun X S Sys.init (h0 ++ h)).net := SysReach.net X S ⟨_, rfl⟩
  have harr : ∀ o : GossipObj, .owner o ∈ ((sysRun X S Sys.init (h0 ++ h)).net.node z).g.out →
      .gossip (some o) ∈ monHist X S z Sys.init (h0 ++ h) := by
    intro o ho
    rcases owner_arrives X S Sys.init (h0 ++ h) z o ho with h2 | h2 | h2
    · cases h2
    · rw [H.quiet.posts] at h2; cases h2
    · exact h2
  rcases owner_of_blacklist S.net H.net.mesh _ hreach H.quiet.net z hz hu e hbl with ⟨o, h1, h2, h3, h4⟩ | ⟨hh, o, hst, h1, h2, h3, h4⟩
  · exact ⟨o, .inl h1, h2, by rw [verify_congr (H.keys z hz)]; exact h3, harr o h4⟩
  · refine ⟨o, .inr h1, h2, by rw [verify_congr (H.keys z hz)]; exact h3, harr o ?_⟩
    exact accFull_owner hst h1 h4 hu (H.quiet.net.idle z hz hu)

/-! ### C114 -/

/-- C114, the monitors' part: gossipers and monitors run together from start-up, all orders of messages, goroutines and timers. If
at least T monitors whose gossipers run end their wait for an entity in one minute without a statement of it and without a proof
against it, then once nothing is under way every running gossiper has blacklisted the entity, and its monitor has a full accusation
or a conflict proof against it on file. Missing: what C92 misses (signatures counted twice, accusations of one entity that differ in
more than their signer). -/
theorem C114_monitors_know_partial {pub : L.BlsSec → L.BlsPub} {rpub : L.RsaPriv → L.RsaPub} {T : Int} {p e : Str}
    {h0 h : List SysEvent} (H : AccPeriod X S pub p e h0 h) (W : Signers S rpub T) (xs : List Str) (hn : xs.Nodup)
    (hlen : T ≤ (xs.length : Int))
    (hxs : ∀ x ∈ xs, x ∈ S.net.ids ∧ (sysRun X S Sys.init (h0 ++ h)).net.up x ∧ Silent X S (sysRun X S Sys.init h0) h x e) :
    let s := sysRun X S Sys.init (h0 ++ h)
    ∀ z ∈ S.net.ids, s.net.up z → (s.net.node z).g.blacklist.has e = true ∧
      ∀ m, s.mon z = some m →
        ∃ p, m.conflictPom.has ⟨p, .CON_INIT, e⟩ = true ∨ m.accusationPom.has ⟨p, .ACC_FULL, e⟩ = true := by
  intro s z hz hu
  obtain ⟨hb, o, ht, hp, _, hd⟩ := H.exposed W xs hn hlen hxs z hz hu
  refine ⟨hb, fun m hm => ?_⟩
  have hm' : (sysRun X S Sys.init (h0 ++ h)).mon z = some m := hm
  rw [sysRun_mon] at hm'
  refine ⟨o.period, ?_⟩
  rcases ht with ht | ht
  · left; rw [← hp, ← ht]; exact delivered_on_file hm' ht hd
  · right; rw [← hp, ← ht]; exact accused_on_file hm' ht hd

/-- Full accusations of `e` on file are among the recent ones. -/
def RecentAccs (e : Str) (m : MonState) : Prop :=
  ∀ p, m.accusationPom.has ⟨p, .ACC_FULL, e⟩ = true → m.accusationDelta.has ⟨p, .ACC_FULL, e⟩ = true

theorem recentAccs_step {c : MonConf L} {m m' : MonState} {ev : MonEvent} (h : monStep X c m ev = some m')
    (hf : ∀ clk, ev ≠ .finish clk) (e : Str) (hm : RecentAccs e m) : RecentAccs e m' := by
  rcases mon_cases X c h with ⟨clk, he, rfl⟩ | ⟨q, w, t, rfl⟩ | ⟨q, w, g, _, rfl⟩ | ⟨q, w, g, _, rfl⟩ | ⟨i, k, d, _, _, rfl⟩
  · exact absurd he (hf clk)
  · exact hm
  · unfold storeObject
    cases g.type <;> try exact hm
    intro p hp
    simp only [GoMap.has_set, Bool.or_eq_true] at hp ⊢
    rcases hp with hp | hp
    · exact .inl hp
    · exact .inr (hm p hp)
  · exact hm
  · unfold fireCRV
    split <;> exact hm

theorem recentAccs_run {c : MonConf L} (evs : List MonEvent) {m m' : MonState} (h : monRun X c m evs = some m')
    (hf : noFinish evs = true) (e : Str) (hm : RecentAccs e m) : RecentAccs e m' := by
  induction evs generalizing m with
  | nil => cases h; exact hm
  | cons ev t ih =>
    simp only [monRun] at h
    cases he : monStep X c m ev with
    | none => rw [he] at h; cases h
    | some m1 =>
      rw [he] at h
      have hne : ∀ clk, ev ≠ .finish clk := by rintro clk rfl; simp [noFinish] at hf
      have ht : noFinish t = true := by cases ev <;> first | exact hf | exact absurd rfl (hne _)
      exact ih h ht (recentAccs_step he hne e hm)

theorem no_accs_yet {c : MonConf L} {evs : List MonEvent} {m : MonState} (h : monRun X c initMonitor evs = some m) (e : Str)
    (hd : ∀ ev ∈ evs, ∀ o, Delivers ev o → o.type = .ACC_FULL → o.payload.p0 ≠ e) : RecentAccs e m := by
  intro p hp
  exfalso
  have key : ∀ (evs : List MonEvent) (a : MonState), monRun X c a evs = some m →
      (∀ ev ∈ evs, ∀ o, Delivers ev o → o.type = .ACC_FULL → o.payload.p0 ≠ e) →
      a.accusationPom.has ⟨p, .ACC_FULL, e⟩ = true := by
    intro evs
    induction evs with
    | nil => intro a ha _; cases ha; exact hp
    | cons ev t ih =>
      intro a ha hd
      simp only [monRun] at ha
      cases he : monStep X c a ev with
      | none => rw [he] at ha; cases ha
      | some a1 =>
        rw [he] at ha
        have := ih a1 ha (fun ev' h' => hd ev' (List.mem_cons_of_mem _ h'))
        rcases (poms_step X c he).2 with h1 | ⟨o, hde, hto, h1⟩
        · rwa [h1] at this
        · rw [h1, GoMap.has_set, Bool.or_eq_true] at this
          rcases this with h2 | h2
          · exact absurd (congrArg GossipID.entity (of_decide_eq_true h2)).symm (hd ev (by simp) o hde hto)
          · exact h2
  have := key evs initMonitor h hd
  simp [initMonitor, GoMap.has, GoMap.get_empty] at this

/-- C114, the clients' part: if in addition the monitor of `z` ends its period at `clk` without having ended one since the period of
the accusations began, and every proof against the entity that it is delivered is new and names the minute of `clk`, then the update
it writes makes every client that accepts it reject all certificates relying on entries that name the entity. Missing: proofs
completed or delivered after the update of their minute is written (`C114_violated_late`), entries that name another signer
(C53). -/
theorem C114_clients_reject_partial {pub : L.BlsSec → L.BlsPub} {rpub : L.RsaPriv → L.RsaPub} {T : Int} {p e : Str}
    {h0 h : List SysEvent} (H : AccPeriod X S pub p e h0 h) (W : Signers S rpub T) (xs : List Str) (hn : xs.Nodup)
    (hlen : T ≤ (xs.length : Int))
    (hxs : ∀ x ∈ xs, x ∈ S.net.ids ∧ (sysRun X S Sys.init (h0 ++ h)).net.up x ∧ Silent X S (sysRun X S Sys.init h0) h x e)
    (z : Str) (hz : z ∈ S.net.ids) (hu : (sysRun X S Sys.init (h0 ++ h)).net.up z) (m : MonState)
    (hm : (sysRun X S Sys.init (h0 ++ h)).mon z = some m) (clk : Clock)
    (hold : ∀ ev ∈ monHist X S z Sys.init h0, ∀ o, Delivers ev o → o.type = .CON_INIT ∨ o.type = .ACC_FULL → o.payload.p0 ≠ e)
    (hfin : noFinish (monHist X S z (sysRun X S Sys.init h0) h) = true)
    (hmin : ∀ ev ∈ monHist X S z (sysRun X S Sys.init h0) h, ∀ o, Delivers ev o → o.type = .CON_INIT ∨ o.type = .ACC_FULL →
      o.payload.p0 = e → o.period = clk.period) :
    ∃ m' u, monStep X (S.mon z) m (.finish clk) = some m' ∧ m'.files.get (periodIO (S.mon z) clk) = some u ∧
      ∀ cc v st st', handleUpdate X (L := L) cc v u st = (.accepted, st') → (st'.pomDB.get e).isSome = true ∧
        ∀ cert, (∀ en ∈ (cert.parseExt X).loggers, en.sth.signer = e) → verifyCTngExt X cc st' cert = .reject := by
  obtain ⟨_, o, ht, hp, _, hd⟩ := H.exposed W xs hn hlen hxs z hz hu
  rw [sysRun_mon] at hm
  have hm' : monRun X (S.mon z) initMonitor (monHist X S z Sys.init (h0 ++ h)) = some m := hm
  have hm2 := hm'
  have hd2 := hd
  rw [monHist_append] at hd2 hm2
  rw [monRun_append] at hm2
  obtain ⟨m0, hm0, hm1⟩ := Option.bind_eq_some_iff.1 hm2
  have hper : o.period = clk.period := by
    rcases List.mem_append.1 hd2 with h1 | h1
    · exact absurd hp (hold _ h1 o (.inl rfl) ht)
    · exact hmin _ h1 o (.inl rfl) ht hp
  have inv := storesInv_run X (S.mon z) (fun _ => True) (fun _ _ => trivial) _ (storesInv_init _) (fun _ _ => trivial) hm
  obtain ⟨u, hfile, _, _, _, _, _, h3, h4⟩ := C43_update_exact X (S.mon z) _ m _ clk hm rfl
  refine ⟨_, u, rfl, hfile, ?_⟩
  have hlist : ∃ g : GossipObj, (g ∈ u.pomCONs ∨ g ∈ u.pomACCs) ∧ g.payload.p0 = e := by
    rcases ht with ht | ht
    · have hon := delivered_on_file hm' ht hd
      have hid : o.getID = ⟨o.period, .CON_INIT, e⟩ := by rw [← hp, ← ht]; rfl
      rw [hid] at hon
      obtain ⟨g, hg⟩ := (GoMap.has_iff _ _).1 (recentCons_run _ hm1 hfin e
        (no_cons_yet hm0 e fun ev hev o h1 h2 => hold ev hev o h1 (.inl h2)) o.period hon)
      have hgid := (inv.conD _ _ hg).1
      refine ⟨g, .inl ((h3 g).2 ⟨by rw [← hgid]; exact hg, ?_⟩), (congrArg GossipID.entity hgid).symm⟩
      rw [← hper]; exact (congrArg GossipID.period hgid).symm
    · have hon := accused_on_file hm' ht hd
      have hid : o.getID = ⟨o.period, .ACC_FULL, e⟩ := by rw [← hp, ← ht]; rfl
      rw [hid] at hon
      obtain ⟨g, hg⟩ := (GoMap.has_iff _ _).1 (recentAccs_run _ hm1 hfin e
        (no_accs_yet hm0 e fun ev hev o h1 h2 => hold ev hev o h1 (.inr h2)) o.period hon)
      have hgid := (inv.accD _ _ hg).1
      refine ⟨g, .inr ((h4 g).2 ⟨by rw [← hgid]; exact hg, ?_⟩), (congrArg GossipID.entity hgid).symm⟩
      rw [← hper]; exact (congrArg GossipID.period hgid).symm
  obtain ⟨g, hgl, hgp⟩ := hlist
  intro cc v st st' hacc
  have hpom := accepted_pom hacc hgl
  rw [hgp] at hpom
  refine ⟨hpom, fun cert hcert => (C53_named_signer_partial X cc st' cert).2 fun en hen => ?_⟩
  rw [hcert en hen]; exact hpom

/-- A proof delivered after the update of its minute was written is in no update. -/
theorem late_unpublished {c : MonConf L} (old post : List MonEvent) (p : GossipObj) (clk : Clock) (e : Str) (s : MonState)
    (ht : p.type = .CON_INIT ∨ p.type = .ACC_FULL) (hp : clk.period ≠ p.period) (hp0 : p.payload.p0 = e)
    (hold : ∀ ev ∈ old, ∀ o, Delivers ev o → o.type ≠ .CON_INIT ∧ o.type ≠ .ACC_FULL)
    (hrun : monRun X c initMonitor (old ++ .gossip (some p) :: .finish clk :: post) = some s)
    (hpost : ∀ ev ∈ post, ∀ o, Delivers ev o → o.type = .CON_INIT ∨ o.type = .ACC_FULL → o.payload.p0 = e → ev = .gossip (some p))
    (u : ClientUpdate) (hu : Published X c (old ++ .gossip (some p) :: .finish clk :: post) u) (g : GossipObj)
    (hg : g ∈ u.pomCONs ∨ g ∈ u.pomACCs) : g.payload.p0 ≠ e := by
  intro hgl
  have hgp : g = p := by
    obtain ⟨ht, ev, he, hd⟩ := listed_delivered hu hg
    simp only [List.mem_append, List.mem_cons] at he
    rcases he with he | rfl | rfl | he
    · have := hold ev he g hd
      rcases ht with h | h
      · exact absurd h this.1
      · exact absurd h this.2
    · rcases hd with h | ⟨_, h⟩ <;> cases h
      rfl
    · rcases hd with h | ⟨_, h⟩ <;> cases h
    · rcases hpost ev he g hd ht hgl with rfl
      rcases hd with h | ⟨_, h⟩ <;> cases h
      rfl
  subst hgp
  refine C78_violated_late_proofs X c old [] post g clk s hrun ht hp rfl ?_ ?_ u hu
    (hg.elim (fun h => .inr (.inr (.inl h))) (fun h => .inr (.inr (.inr h))))
  · intro ev he hd
    have := hold ev he g hd
    rcases ht with h | h
    · exact this.1 h
    · exact this.2 h
  · intro ev he o hd hid
    refine hpost ev he o hd ?_ ((congrArg GossipID.entity hid : o.payload.p0 = g.payload.p0).trans hp0)
    have hto : o.type = g.type := congrArg GossipID.type hid
    rw [hto]; exact ht

namespace Ref

/-- M1's accusation is posted to both gossipers; both blacklist L1. -/
example : ∀ y ∈ [go!"G1", go!"G2"], ((nrun mesh Net.init accConc).node y).g.blacklist.has (go!"L1") = true := by
  have hnf : ∀ e ∈ accConc, e.noFull accRound := by
    have h : postedAll (fun o => decide (o = accuse)) accConc = true := by decide +kernel
    intro e he
    cases e with
    | deliver i clk => trivial
    | node x e =>
      obtain ⟨clk, ev⟩ := e
      intro n o hev
      simp only at hev
      subst hev
      have := of_decide_eq_true (List.all_eq_true.1 h _ he)
      rw [this]; intro h'; cases h'
  intro y hy
  refine C92_posted_accusations_partial (mesh_net accRound (by decide)) rfl 2 (fun _ _ => rfl) mesh_ids Net.init
    (mesh_cstart _) (fun _ _ _ => rfl) (fun m hm => by cases hm) accConc (by decide +kernel) accConc_ok hnf
    (quiet_of_check (by decide +kernel)) (distinct_of_check (by decide +kernel))
    [go!"G1", go!"G2"] (by decide) (by decide) (fun x hx => ⟨hx, accConc_up x hx, accuse, clk, 10, rfl, ?_, ?_⟩) y hy (accConc_up y hy)
  · rcases mem_mesh hx with rfl | rfl <;> decide +kernel
  · rcases mem_mesh hx with rfl | rfl <;> simp [accConc]

/-- Both monitors query L1, get no answer, and accuse it when their wait is over; the gossipers sign the accusation. -/
def sysSilent : List SysEvent :=
  [.mon (go!"G1") (.query clk), .mon (go!"G2") (.query clk), .mon (go!"G1") (.answer 0 .failed), .mon (go!"G2") (.answer 0 .failed),
   .mon (go!"G1") (.wait 0 clk), .mon (go!"G2") (.wait 0 clk), .arrive 0 clk, .arrive 0 clk] ++ (accConc.drop 2).map .net

/-- The full accusations then reach the monitors. -/
def silentDone : List SysEvent := sysSilent ++ List.replicate 2 (.arrive 0 clk)

/-- The full accusations reach the monitors after they have written their updates. -/
def silentLate : List SysEvent :=
  sysSilent ++ [.mon (go!"G1") (.finish clk), .mon (go!"G2") (.finish clk)] ++ List.replicate 2 (.arrive 0 clk)

/-- What gossiper `x` holds against L1. -/
def silentFull (x : Str) : GossipObj :=
  (((sysRun xlib sysConf Sys.init sysSilent).net.node x).g.storage.accFull.get ⟨go!"05", .ACC_FULL, go!"L1"⟩).getD sth

theorem silent_events (h : List SysEvent)
    (hev : ∀ e ∈ h, e ∈ sysSilent ∨ e = .arrive 0 clk ∨ ∃ x, e = .mon x (.finish clk)) {e : SysEvent} (he : e ∈ h) :
    (∀ ne, e = .net ne → ne.noWipe = true ∧ ∀ x clk n o, ne ≠ .node x (clk, .recv n o)) ∧
    (∀ x i c, e = .mon x (.wait i c) → c.period = go!"05") := by
  rcases hev e he with h | rfl | ⟨x, rfl⟩
  · rcases List.mem_append.1 h with h | h
    · simp at h
      rcases h with rfl | rfl | rfl | rfl | rfl | rfl | rfl
      all_goals
        refine ⟨fun ne h => (by cases h), fun x i c h => ?_⟩
        cases h <;> rfl
    · obtain ⟨ev, hev, rfl⟩ := List.mem_map.1 h
      have hall : ((accConc.drop 2).all fun ev => ev.noWipe && !ev.isRecv) = true := by decide +kernel
      have := List.all_eq_true.1 hall ev hev
      rw [Bool.and_eq_true] at this
      refine ⟨fun ne h => ?_, fun x i c h => (by cases h)⟩
      cases h
      refine ⟨this.1, ?_⟩
      rintro x clk n o rfl
      exact absurd this.2 (by simp [NEvent.isRecv])
  · exact ⟨fun ne h => (by cases h), fun x i c h => (by cases h)⟩
  · exact ⟨fun ne h => (by cases h), fun x i c h => (by cases h)⟩

theorem silent_period (h : List SysEvent)
    (hev : ∀ e ∈ h, e ∈ sysSilent ∨ e = .arrive 0 clk ∨ ∃ x, e = .mon x (.finish clk))
    (hq : quietCheck mesh (sysRun xlib sysConf Sys.init h).net = true) (hp : (sysRun xlib sysConf Sys.init h).posts = [])
    (hd : DistinctFrags mesh (accOf (go!"05") (go!"L1")) (sysRun xlib sysConf Sys.init h).net) :
    AccPeriod xlib sysConf blsPub (go!"05") (go!"L1") [] h where
  net := mesh_net _ (by decide)
  keys := fun _ _ => ⟨rfl, rfl, fun _ => rfl, fun _ => rfl⟩
  start := mesh_cstart _
  clean := fun _ _ _ => rfl
  noFulls := by intro m hm; cases hm
  fresh := by intro x o h; cases h
  noWipe := fun ev he ne hn => ((silent_events h hev he).1 ne hn).1
  minute := fun x i c he => (silent_events _ hev he).2 x i c rfl
  posted := fun x c n o he => absurd rfl (((silent_events _ hev he).1 _ rfl).2 x c n o)
  quiet := ⟨quiet_of_check hq, hp⟩
  distinct := hd

theorem silentDone_period : AccPeriod xlib sysConf blsPub (go!"05") (go!"L1") [] silentDone :=
  silent_period silentDone (by
    intro e he
    rcases List.mem_append.1 he with h | h
    · exact .inl h
    · exact .inr (.inl (List.mem_replicate.1 h).2)) (by decide +kernel) (by decide +kernel)
    (distinct_of_check (N := mesh) (R := accOf (go!"05") (go!"L1")) (by decide +kernel))

theorem silentLate_period : AccPeriod xlib sysConf blsPub (go!"05") (go!"L1") [] silentLate :=
  silent_period silentLate (by
    intro e he
    rcases List.mem_append.1 he with h | h
    · rcases List.mem_append.1 h with h | h
      · exact .inl h
      · simp at h
        rcases h with h | h <;> exact .inr (.inr ⟨_, h⟩)
    · exact .inr (.inl (List.mem_replicate.1 h).2)) (by decide +kernel) (by decide +kernel)
    (distinct_of_check (N := mesh) (R := accOf (go!"05") (go!"L1")) (by decide +kernel))

theorem sys_signers : Signers sysConf rsaPub 2 where
  threshold := fun _ _ => rfl
  names := mesh_ids
  rsa := rsaLaws
  own := by
    intro x hx
    rcases mem_mesh hx with rfl | rfl <;> exact ⟨fun d => ⟨_, rfl⟩, by unfold Safe; decide, rfl, rfl⟩
  scheme := fun _ _ => rfl
  known := by
    intro x hx
    rcases mem_mesh hx with rfl | rfl <;> rfl

theorem silentDone_up : ∀ x ∈ mesh.ids, (sysRun xlib sysConf Sys.init silentDone).net.up x := up_of_all (by decide +kernel)

theorem silentLate_up : ∀ x ∈ mesh.ids, (sysRun xlib sysConf Sys.init silentLate).net.up x := up_of_all (by decide +kernel)

theorem monHist_silent (x : Str) (hx : x ∈ mesh.ids) : monHist xlib sysConf x Sys.init silentDone =
    [.query clk, .answer 0 .failed, .wait 0 clk, .gossip (some (silentFull x))] := by
  rcases mem_mesh hx with rfl | rfl <;> decide +kernel

theorem monHist_silentLate (x : Str) (hx : x ∈ mesh.ids) : monHist xlib sysConf x Sys.init silentLate =
    [.query clk, .answer 0 .failed, .wait 0 clk, .finish clk, .gossip (some (silentFull x))] := by
  rcases mem_mesh hx with rfl | rfl <;> decide +kernel

theorem silentFull_is (x : Str) (hx : x ∈ mesh.ids) : (silentFull x).type = .ACC_FULL ∧ (silentFull x).payload.p0 = go!"L1" ∧
    (silentFull x).period = go!"05" := by
  rcases mem_mesh hx with rfl | rfl <;> decide +kernel

theorem silent_of_hist {h : List SysEvent} {b : List MonEvent} {x : Str}
    (hh : monHist xlib sysConf x Sys.init h = .query clk :: .answer 0 .failed :: .wait 0 clk :: b) :
    Silent xlib sysConf Sys.init h x (go!"L1") :=
  ⟨[.query clk, .answer 0 .failed], 0, clk, b, _, .logger, hh, rfl, rfl, rfl, rfl, rfl⟩

/-- Both gossipers blacklist L1, both monitors have the full accusation. -/
example : ∀ z ∈ mesh.ids, ((sysRun xlib sysConf Sys.init silentDone).net.node z).g.blacklist.has (go!"L1") = true ∧
    ∀ m, (sysRun xlib sysConf Sys.init silentDone).mon z = some m →
      ∃ p, m.conflictPom.has ⟨p, .CON_INIT, go!"L1"⟩ = true ∨ m.accusationPom.has ⟨p, .ACC_FULL, go!"L1"⟩ = true :=
  C114_monitors_know_partial silentDone_period sys_signers [go!"G1", go!"G2"] (by decide) (by decide)
    (fun x hx => ⟨hx, by rw [List.nil_append]; exact silentDone_up x hx, silent_of_hist (monHist_silent x hx)⟩) |>
    fun h z hz => by
      rw [List.nil_append] at h
      exact h z hz (silentDone_up z hz)

/-- The monitor of G2 ends its period in the same minute: clients of its update reject everything that relies on L1. -/
example (m : MonState) (hm : (sysRun xlib sysConf Sys.init silentDone).mon (go!"G2") = some m) :
    ∃ m' u, monStep xlib (sysConf.mon (go!"G2")) m (.finish clk) = some m' ∧
      m'.files.get (periodIO (sysConf.mon (go!"G2")) clk) = some u ∧
      ∀ cc v st st', handleUpdate xlib (L := lib) cc v u st = (.accepted, st') → (st'.pomDB.get (go!"L1")).isSome = true ∧
        ∀ cert, (∀ e ∈ (cert.parseExt xlib).loggers, e.sth.signer = go!"L1") → verifyCTngExt xlib cc st' cert = .reject := by
  have hG : go!"G2" ∈ mesh.ids := by decide
  refine C114_clients_reject_partial silentDone_period sys_signers [go!"G1", go!"G2"] (by decide) (by decide)
    (fun x hx => ⟨hx, by rw [List.nil_append]; exact silentDone_up x hx, silent_of_hist (monHist_silent x hx)⟩) (go!"G2") hG
    (by rw [List.nil_append]; exact silentDone_up _ hG) m (by rw [List.nil_append]; exact hm) clk
    (by intro e he; cases he) ?_ ?_
  · show noFinish (monHist xlib sysConf (go!"G2") Sys.init silentDone) = true
    rw [monHist_silent _ hG]; rfl
  · intro e he o hd _ _
    have he' : e ∈ monHist xlib sysConf (go!"G2") Sys.init silentDone := he
    rw [monHist_silent _ hG] at he'
    have hper := (silentFull_is _ hG).2.2
    generalize silentFull (go!"G2") = f at he' hper
    simp only [List.mem_cons, List.not_mem_nil, or_false] at he'
    rcases he' with rfl | rfl | rfl | rfl <;> rcases hd with h | ⟨_, h⟩ <;> cases h
    exact hper

end Ref

open Ref in
/-- C114 fails when the proofs arrive late: both monitors accuse L1 and both gossipers blacklist it, but the monitors end their period
before the full accusations arrive. Both monitors have the proof on file. The next period ends in the next minute, and
whatever happens then, as long as no other proof against L1 comes up, no update either monitor ever publishes carries a proof
against L1. -/
theorem C114_violated_late :
    AccPeriod xlib sysConf blsPub (go!"05") (go!"L1") [] silentLate ∧ Signers sysConf rsaPub 2 ∧
    ∀ z ∈ mesh.ids, Silent xlib sysConf Sys.init silentLate z (go!"L1") ∧ (sysRun xlib sysConf Sys.init silentLate).net.up z ∧
      ((sysRun xlib sysConf Sys.init silentLate).net.node z).g.blacklist.has (go!"L1") = true ∧
      ∃ p : GossipObj, p.type = .ACC_FULL ∧ p.payload.p0 = go!"L1" ∧
      (∃ m, (sysRun xlib sysConf Sys.init silentLate).mon z = some m ∧ m.accusationPom.get p.getID = some p) ∧
      ∀ (post : List MonEvent) (s : MonState),
        monRun xlib (sysConf.mon z) initMonitor (monHist xlib sysConf z Sys.init silentLate ++ .finish clk06 :: post) = some s →
        (∀ e ∈ post, ∀ o, Delivers e o → o.type = .CON_INIT ∨ o.type = .ACC_FULL → o.payload.p0 = go!"L1" → e = .gossip (some p)) →
        ∀ u, Published xlib (sysConf.mon z) (monHist xlib sysConf z Sys.init silentLate ++ .finish clk06 :: post) u →
          ∀ g, g ∈ u.pomCONs ∨ g ∈ u.pomACCs → g.payload.p0 ≠ go!"L1" := by
  refine ⟨silentLate_period, sys_signers, fun z hz => ⟨silent_of_hist (monHist_silentLate z hz), silentLate_up z hz, ?_,
    silentFull z, (silentFull_is z hz).1, (silentFull_is z hz).2.1, ?_, ?_⟩⟩
  · rcases mem_mesh hz with rfl | rfl <;> decide +kernel
  · rw [sysRun_mon, monHist_silentLate z hz]
    rcases mem_mesh hz with rfl | rfl <;> exact ⟨_, rfl, by decide +kernel⟩
  · intro post s hrun hpost u hu g hg
    rw [monHist_silentLate z hz] at hrun hu
    refine late_unpublished [.query clk, .answer 0 .failed, .wait 0 clk, .finish clk] post (silentFull z) clk06 (go!"L1") s
      (.inr (silentFull_is z hz).1) (by rw [(silentFull_is z hz).2.2]; decide) (silentFull_is z hz).2.1 ?_ hrun hpost u hu g hg
    intro ev he o hd
    simp only [List.mem_cons, List.not_mem_nil, or_false] at he
    rcases he with rfl | rfl | rfl | rfl <;> rcases hd with h | ⟨_, h⟩ <;> cases h

end CTng
