import Verif.Props.SystemAcc
import Verif.Props.MonitorUpdates
import Verif.Props.ClientExamples
/-
C116: from the statement one monitor fetches to the databases of clients. C38: statements posted to gossipers.
-/
set_option autoImplicit false

namespace CTng
open Mon Client

variable {L : Lib}

/-! ### C38 for statements posted to gossipers -/

/-- The gossiper is done with the key, or an acceptable object is on its way into the store. -/
def Settling (c : CState) (k : GossipID) (o : GossipObj) : Prop := Settled c k ∨ ∃ f, Learns o f ∧ Pending c f

theorem Settling.cstep {cf : GConf L} {c : CState} {k : GossipID} {o : GossipObj} (hs : Sound cf c) (hi : NodeInv cf c k)
    (hth : 0 < cf.crypto.threshold) (hk : FloodType k.type) (ho : Carrier cf k o) (e : Clock × CEvent)
    (hu : (CTng.cstep cf c e).g.crashed = false) (h : Settling c k o) : Settling (CTng.cstep cf c e) k o := by
  rcases h with h | h
  · exact .inl (h.act hs hi.noWipe (cstep_act cf c e hu))
  · exact learn_act hs hi hth hk ho (cstep_act cf c e hu) h

/-- A statement that verifies and is posted to a gossiper. -/
theorem posted_settles {N : NetConf L} (hM : Mesh N) {k : GossipID} (hk : FloodKey N k) {x : Str} (hx : x ∈ N.ids) {o : GossipObj}
    (ho : Carrier (N.conf x) k o) (es : List NEvent) (he : k.type = .CON_INIT ∨ ∀ e ∈ es, e.noWipe = true) {s : Net} (hr : NReach N s)
    (hI : NetInv N k s) (hsh : (∃ clk n, NEvent.node x (clk, .recv n o) ∈ es) ∨ Settling (s.node x) k o)
    (hu : (nrun N s es).up x) : Settling ((nrun N s es).node x) k o := by
  induction es generalizing s with
  | nil =>
    rcases hsh with ⟨_, _, h⟩ | h
    · cases h
    · exact h
  | cons e es ih =>
    have hI' := nstep_inv hM hk hI e (he.imp id fun h => h e (by simp))
    refine ih (he.imp id fun h e' h' => h e' (by simp [h'])) (hr.step e) hI' ?_ hu
    have hu' : (nstep N s e).up x := up_mono es _ x (hr.step e) hu
    rcases hsh with ⟨clk, n, h⟩ | h
    · rcases List.mem_cons.1 h with h | h
      · right
        subst h
        have hnode : (nstep N s (.node x (clk, .recv n o))).node x = cstep (N.conf x) (s.node x) (clk, .recv n o) := by
          simp [nstep, nodeStep, hx]
        have hup : (s.node x).g.crashed = false := by
          unfold Net.up at hu'; rw [hnode] at hu'; exact up_before _ hu'
        rw [hnode]
        exact .inr ⟨.recv n o, .inl ⟨n, rfl⟩, cstep_recv (N.conf x) (s.node x) clk n o hup⟩
      · exact .inl ⟨clk, n, h⟩
    · right
      rcases nstep_node_or N s e x with h1 | ⟨ev, h1⟩
      · rw [h1]; exact h
      · have hu2 : (cstep (N.conf x) (s.node x) ev).g.crashed = false := by
          unfold Net.up at hu'; rw [h1] at hu'; exact hu'
        rw [h1]
        exact h.cstep (hI.reach x).sound (hI.inv x hx (up_before _ hu2)) (hM.threshold x hx) hk.type ho ev hu2

/-- C38, from the posts: in a fully connected network as in `C38_statements_flood`, once nothing is under way, if an STH that
verifies and names its signer was posted to a gossiper that still runs and has not blacklisted the entity, then every running
gossiper holds an STH for that period and entity or has blacklisted the entity. -/
theorem C38_posted_statements_flood (N : NetConf L) (hM : Mesh N) (s : Net) (k : GossipID) (hk : k.type = .STH_INIT)
    (hs : RoundStart N k s) (es : List NEvent) (hes : ∀ e ∈ es, e.noWipe = true) (hq : Quiet N (nrun N s es)) (x y : Str)
    (hx : x ∈ N.ids) (hy : y ∈ N.ids) (hux : (nrun N s es).up x) (huy : (nrun N s es).up y) (o : GossipObj) (hid : o.getID = k)
    (hv : o.verify (N.conf x).crypto = .ok) (hn : o.signer ≠ []) (clk : Clock) (n : Int) (hp : NEvent.node x (clk, .recv n o) ∈ es) :
    ((nrun N s es).node x).g.blacklist.has k.entity = true ∨ ((nrun N s es).node y).g.blacklist.has k.entity = true ∨
    ((nrun N s es).node y).g.storage.sthInit.has k = true := by
  have hI := nrun_inv hM (.inr (.inl hk)) (hs.inv (.inl hk)) es (.inr hes)
  rcases posted_settles hM (.inr (.inl hk)) hx ⟨hid, hv, .inr hn⟩ es (.inr hes) hs.reach (hs.inv (.inl hk)) (.inl ⟨clk, n, hp⟩) hux with
    (h | ⟨g, h, _⟩ | ⟨_, h⟩) | ⟨f, _, h⟩
  · exact .inl h
  · exact absurd h (not_pending_of_idle (hq.idle x hx hux) _)
  · right
    rcases settled_of_quiet hI hq hx hy hux huy h with h | ⟨_, h⟩
    · exact .inl h
    · refine .inr ?_
      unfold HeldKey at h; rw [hk] at h; exact h
  · exact absurd h (not_pending_of_idle (hq.idle x hx hux) _)

open Ref in
/-- L1's tree head is posted to G1; G2 holds one. -/
example : ((nrun mesh Net.init floodHist).node (go!"G2")).g.storage.sthInit.has sth.getID = true := by
  have hb : ∀ x ∈ mesh.ids, ((nrun mesh Net.init floodHist).node x).g.blacklist.has sth.getID.entity = false := by
    intro x hx; rcases mem_mesh hx with rfl | rfl <;> decide +kernel
  have hs : RoundStart mesh sth.getID Net.init := by
    refine ⟨⟨[], rfl⟩, fun _ _ _ => ⟨rfl, rfl⟩, ?_, ?_⟩ <;> intro x _ _ t ht <;> cases ht
  have hu : ∀ x ∈ mesh.ids, (nrun mesh Net.init floodHist).up x := up_of_all (by decide +kernel)
  rcases C38_posted_statements_flood mesh mesh_ok Net.init sth.getID rfl hs floodHist (by decide +kernel) (quiet_of_check (by decide +kernel))
    (go!"G1") (go!"G2") (by decide) (by decide) (hu _ (by decide)) (hu _ (by decide)) sth rfl (by decide +kernel) (by decide) clk 10
    (by simp [floodHist]) with h | h | h
  · rw [hb _ (by decide)] at h; cases h
  · rw [hb _ (by decide)] at h; cases h
  · exact h

variable (X : XLib) (S : SysConf L)

/-! ### Specification -/

/-- A query of the monitor of `x` is answered with the object, and the monitor passes it on. -/
def Fetches (s : Sys) (h : List SysEvent) (x : Str) (o : GossipObj) : Prop :=
  ∃ a i b m m', monHist X S x s h = a ++ .answer i (.obj o) :: b ∧ ((s.mon x).bind fun m => monRun X (S.mon x) m a) = some m ∧
    monStep X (S.mon x) m (.answer i (.obj o)) = some m' ∧ m'.sent = m.sent ++ [o]

/-- The round of a tree head or revocation update, from start-up: the history `h0` up to a moment at which no gossiper has heard of
it, and the history `h` after it. Nobody shows anybody another statement of the entity that verifies. -/
structure StatementPeriod (pub : L.BlsSec → L.BlsPub) (R : Round) (h0 h : List SysEvent) : Prop where
  net : NetOK S.net pub R
  kind : R.kind = .sth ∨ R.kind = .rev
  keys : ∀ x ∈ S.net.ids, SameVerify (S.mon x).crypto (S.net.conf x).crypto
  start : CRoundStart S.net pub R (sysRun X S Sys.init h0).net
  fresh : ∀ x o, .toGossiper x o ∈ (sysRun X S Sys.init h0).posts → MsgOK (S.net.conf x).crypto pub R o
  noWipe : ∀ ev ∈ h, ∀ ne, ev = .net ne → ne.noWipe = true
  /-- what monitors are answered, by anyone -/
  answered : ∀ x i (o : GossipObj), SysEvent.mon x (.answer i (.obj o)) ∈ h → o.type = R.kind.init →
    o.verify (S.mon x).crypto = .ok → o.payload.p0 = R.pay.p0 → o.payload = R.pay ∧ o.period = R.period
  /-- what anyone else posts to gossipers -/
  posted : ∀ x clk n (o : GossipObj), SysEvent.net (.node x (clk, .recv n o)) ∈ h → MsgOK (S.net.conf x).crypto pub R o
  ended : CRoundEnd S.net R (sysRun X S Sys.init (h0 ++ h)).net
  posts : (sysRun X S Sys.init (h0 ++ h)).posts = []
  /-- no gossiper has counted a signature twice -/
  distinct : DistinctFrags S.net R (sysRun X S Sys.init (h0 ++ h)).net
  /-- nobody has a proof against the entity -/
  clean : ∀ x ∈ S.net.ids, (sysRun X S Sys.init (h0 ++ h)).net.up x →
    ((sysRun X S Sys.init (h0 ++ h)).net.node x).g.blacklist.has R.pay.p0 = false

/-- At least `T` gossipers run, which are told apart by name and want `T` signatures. -/
structure Enough (T : Int) (s : Net) : Prop where
  threshold : ∀ x ∈ S.net.ids, (S.net.conf x).crypto.threshold = T
  names : ∀ x ∈ S.net.ids, ∀ y ∈ S.net.ids, (S.net.conf x).crypto.selfID = (S.net.conf y).crypto.selfID → x = y
  running : ∃ xs : List Str, xs.Nodup ∧ T ≤ (xs.length : Int) ∧ ∀ x ∈ xs, x ∈ S.net.ids ∧ s.up x

variable {X S}

/-! ### Lemmas -/

theorem Kind.init_ne_acc {k : Kind} (h : k = .sth ∨ k = .rev) : k.init ≠ .ACC_INIT ∧ k.frag ≠ .ACC_INIT ∧ k.full ≠ .ACC_INIT := by
  rcases h with rfl | rfl <;> simp [Kind.init, Kind.frag, Kind.full]

theorem StatementPeriod.arriving {pub : L.BlsSec → L.BlsPub} {R : Round} {h0 h : List SysEvent}
    (H : StatementPeriod X S pub R h0 h) (x : Str) (clk : Clock) (n : Int) (o : GossipObj)
    (hm : NEvent.node x (clk, .recv n o) ∈ netHist X S (sysRun X S Sys.init h0) h) : MsgOK (S.net.conf x).crypto pub R o := by
  rcases recv_source X S _ h x clk n o hm with h1 | h1 | ⟨a, ev, b, m, m', h1, _, _, h4, _⟩
  · exact H.posted x clk n o h1
  · exact H.fresh x o h1
  · cases h4 with
    | forwarded i u kd he hq hv' hk =>
      have hty : o.type = .STH_INIT ∨ o.type = .REV_INIT := hk.imp (·.1) (·.1)
      have ham : SysEvent.mon x (.answer i (.obj o)) ∈ h :=
        answer_event (X := X) (S := S) x (sysRun X S Sys.init h0) h i _ (by rw [h1, he]; simp)
      refine ⟨fun ht _ hp => H.answered x i o ham ht hv' hp, fun ht => ?_, fun ht => ?_⟩
      · rcases hty with h | h <;> rw [h] at ht <;> rcases H.kind with hk | hk <;> rw [hk] at ht <;> cases ht
      · rcases hty with h | h <;> rw [h] at ht <;> rcases H.kind with hk | hk <;> rw [hk] at ht <;> cases ht
    | accused i wclk u kd he hw hg _ _ _ =>
      obtain ⟨e1, e2, e3⟩ := Kind.init_ne_acc H.kind
      subst hg
      exact .other (fun h => e1 h.symm) (fun h => e2 h.symm) (fun h => e3 h.symm)

/-- What a monitor fetched and passes on reaches its gossiper. -/
theorem fetches_shown {s : Sys} {h : List SysEvent} {x : Str} {o : GossipObj} (ha : Fetches X S s h x o)
    (hq : (sysRun X S s h).posts = []) : ∃ clk n, .node x (clk, .recv n o) ∈ netHist X S s h := by
  obtain ⟨a, i, b, m, m', h1, h2, h3, h4⟩ := ha
  rcases monPosts_arrives X S s h x o a _ b m _ h1 h2 h3 h4 with h | h
  · rw [hq] at h; cases h
  · exact h

/-- The end of such a round: the monitor of every running gossiper was delivered a FULL object with the statement. -/
theorem StatementPeriod.certified {pub : L.BlsSec → L.BlsPub} {R : Round} {T : Int} {h0 h : List SysEvent}
    (H : StatementPeriod X S pub R h0 h) (W : Enough S T (sysRun X S Sys.init (h0 ++ h)).net) (x : Str) (hx : x ∈ S.net.ids)
    (hux : (sysRun X S Sys.init (h0 ++ h)).net.up x) (o : GossipObj) (hf : Fetches X S (sysRun X S Sys.init h0) h x o)
    (hid : o.getID = ⟨R.period, R.kind.init, R.pay.p0⟩) (hv : o.verify (S.mon x).crypto = .ok) (hn : o.signer ≠ [])
    (z : Str) (hz : z ∈ S.net.ids) (huz : (sysRun X S Sys.init (h0 ++ h)).net.up z) :
    ∃ g : GossipObj, g.type = R.kind.full ∧ g.payload = R.pay ∧ g.verify (S.mon z).crypto = .ok ∧
      .gossip (some g) ∈ monHist X S z Sys.init (h0 ++ h) := by
  have hrun : (sysRun X S Sys.init (h0 ++ h)).net =
      nrun S.net (sysRun X S Sys.init h0).net (netHist X S (sysRun X S Sys.init h0) h) := by
    rw [sysRun_append]; exact sysRun_net X S _ h
  have hposts : (sysRun X S (sysRun X S Sys.init h0) h).posts = [] := by rw [← sysRun_append]; exact H.posts
  have hw := noWipe_hist (X := X) (S := S) (sysRun X S Sys.init h0) h H.noWipe
  have hk' : R.kind ≠ .acc := by rintro h; rcases H.kind with h' | h' <;> rw [h] at h' <;> cases h'
  have hok : ∀ ev ∈ netHist X S (sysRun X S Sys.init h0) h, ev.ok S.net pub R := by
    intro ev hev
    cases ev with
    | deliver i clk => trivial
    | node y ce =>
      obtain ⟨clk, ce⟩ := ce
      intro n o hce
      simp only at hce; subst hce
      exact H.arriving y clk n o hev
  obtain ⟨xs, hnd, hlen, hxs⟩ := W.running
  obtain ⟨clk, n, hm⟩ := fetches_shown hf hposts
  have hvx : o.verify (S.net.conf x).crypto = .ok := by rw [← verify_congr (H.keys x hx)]; exact hv
  have hfk : FloodKey S.net R.key0 := by
    rcases H.kind with hkk | hkk
    · exact .inr (.inl (by simp [Round.key0, hkk, Kind.init]))
    · exact .inr (.inr ⟨by simp [Round.key0, hkk, Kind.init], fun z hz o => ((H.net.signer z hz).unopt hkk).2 o⟩)
  have hq : Quiet S.net (nrun S.net (sysRun X S Sys.init h0).net (netHist X S (sysRun X S Sys.init h0) h)) := by
    rw [← hrun]; exact H.ended.quiet
  rw [hrun] at hux huz hxs
  have hclean := H.clean
  have hended := H.ended
  have hdist := H.distinct
  rw [hrun] at hclean hended hdist
  have hheld : (((nrun S.net (sysRun X S Sys.init h0).net (netHist X S (sysRun X S Sys.init h0) h)).node x).g.storage.objs
      R.kind.init).has R.key0 = true := by
    rcases posted_settles H.net.mesh hfk hx ⟨hid, hvx, .inr hn⟩ _ (.inr hw) H.start.reach (H.start.netInv hk') (.inl ⟨clk, n, hm⟩) hux with
      (h1 | ⟨g, h1, _⟩ | ⟨_, h1⟩) | ⟨f, _, h1⟩
    · have := hclean x hx hux
      have h1' : ((nrun S.net (sysRun X S Sys.init h0).net (netHist X S (sysRun X S Sys.init h0) h)).node x).g.blacklist.has R.pay.p0 = true := h1
      rw [this] at h1'; cases h1'
    · exact absurd h1 (not_pending_of_idle (hq.idle x hx hux) _)
    · exact h1
    · exact absurd h1 (not_pending_of_idle (hq.idle x hx hux) _)
  obtain ⟨q, hq'⟩ := (GoMap.has_iff _ _).1 hheld
  obtain ⟨k, g, hg1, hg2, hg3, hg4⟩ := C91_distinct_fragments_partial H.net H.kind T W.threshold W.names _ H.start _ hw hok hended hdist hclean
    xs hnd hxs hlen x hx hux q (heldAs_iff.2 hq') z hz huz
  refine ⟨g, ?_, hg3, by rw [verify_congr (H.keys z hz)]; exact hg2, ?_⟩
  · exact ((nrun_reach S.net _ H.start.reach.node _ z).sound.storage.objs _ _ _ (heldAs_iff.1 hg1)).2.1
  · rw [← hrun] at hg4
    rcases owner_arrives X S Sys.init (h0 ++ h) z g hg4 with h2 | h2 | h2
    · cases h2
    · rw [H.posts] at h2; cases h2
    · exact h2

theorem recent_of_delivery {c : MonConf L} (s : MonState) (o : GossipObj) (ht : o.type = .STH_FULL ∨ o.type = .REV_FULL) :
    recent (handleGossip X c s (some o)) o = some o := by
  have h1 := (handleGossip_stored X c s o (by rcases ht with h | h <;> simp [storedType, keptType, h])).1
  have key : ∀ m : Option GossipObj, m.getD .zero = o → m = some o := by
    intro m hm
    cases m with
    | none => rw [← hm] at ht; rcases ht with h | h <;> cases h
    | some x => exact congrArg some hm
  have hT : o.getID.type = o.type := rfl
  unfold Mon.getObject at h1
  rw [hT] at h1
  unfold recent
  rcases ht with h | h <;> rw [h] at h1 ⊢ <;> exact key _ h1

/-- A delivered FULL object is at hand at the end of the run, or another one delivered under its id. -/
theorem recent_delivered {c : MonConf L} (evs : List MonEvent) {s s' : MonState} (h : monRun X c s evs = some s')
    (hf : noFinish evs = true) (o : GossipObj) (ht : o.type = .STH_FULL ∨ o.type = .REV_FULL) (P : GossipObj → Prop)
    (hP : ∀ e ∈ evs, ∀ g, Delivers e g → g.getID = o.getID → P g)
    (hd : MonEvent.gossip (some o) ∈ evs ∨ ∃ g, recent s o = some g ∧ P g) : ∃ g, recent s' o = some g ∧ P g := by
  induction evs generalizing s with
  | nil =>
    rcases hd with h1 | h1
    · cases h1
    · cases h; exact h1
  | cons e t ih =>
    simp only [monRun] at h
    cases he : monStep X c s e with
    | none => rw [he] at h; exact absurd h (by simp)
    | some s1 =>
      rw [he] at h
      refine ih h (by cases e <;> first | exact hf | cases hf) (fun e' h' => hP e' (by simp [h'])) ?_
      by_cases heq : e = .gossip (some o)
      · subst heq
        cases he
        exact .inr ⟨o, recent_of_delivery s o ht, hP _ (by simp) o (.inl rfl) rfl⟩
      · rcases hd with h1 | ⟨g, h1, hg⟩
        · rcases List.mem_cons.1 h1 with h2 | h2
          · exact absurd h2.symm heq
          · exact .inl h2
        · right
          rcases recent_step X c he (by rintro clk rfl; cases hf) o (by rcases ht with h | h <;> simp [keptType, h]) with
            h2 | ⟨q, hq, hid, h2⟩
          · exact ⟨g, by rw [h2]; exact h1, hg⟩
          · exact ⟨q, h2, hP e (by simp) q hq hid⟩

theorem recorded (l : List GossipObj) (db : GoMap Str Str) (k v : Str)
    (hv : ∀ g ∈ l, g.payload.p0 ++ go!"@" ++ g.period = k → ((treeInfo X g).map (·.rootHash)).getD [] = v)
    (h : (∃ g ∈ l, g.payload.p0 ++ go!"@" ++ g.period = k) ∨ db.get k = some v) : (l.foldl (recordSTH X) db).get k = some v := by
  induction l generalizing db with
  | nil =>
    rcases h with ⟨_, h, _⟩ | h
    · cases h
    · exact h
  | cons a t ih =>
    refine ih _ (fun g hg => hv g (by simp [hg])) ?_
    by_cases e : a.payload.p0 ++ go!"@" ++ a.period = k
    · right
      unfold recordSTH
      rw [← hv a (by simp) e, e, GoMap.get_set_self]
    · rcases h with ⟨g, hg, hk⟩ | h
      · rcases List.mem_cons.1 hg with rfl | hg
        · exact absurd hk e
        · exact .inl ⟨g, hg, hk⟩
      · right
        unfold recordSTH
        rw [GoMap.get_set_ne _ _ (fun h => e h.symm)]
        exact h

/-! ### C116 -/

/-- Beyond the round: at `clk` the monitor of `z`, in state `m`, ends its period for the first time since the round began, the
statement is new to it, what it holds of the entity is what the round is about, and the signatures on the statement were completed in
the minute of `clk`. -/
structure PublishedIn (R : Round) (h0 h : List SysEvent) (z : Str) (m : MonState) (clk : Clock) : Prop where
  state : (sysRun X S Sys.init (h0 ++ h)).mon z = some m
  new : ∀ ev ∈ monHist X S z Sys.init h0, ∀ o, Delivers ev o → o.type = R.kind.full → o.payload ≠ R.pay
  first : noFinish (monHist X S z (sysRun X S Sys.init h0) h) = true
  inTime : ∀ ev ∈ monHist X S z (sysRun X S Sys.init h0) h, ∀ o : GossipObj, Delivers ev o → o.type = R.kind.full →
    o.verify (S.mon z).crypto = .ok → o.payload = R.pay → o.period = clk.period
  only : ∀ ev ∈ monHist X S z (sysRun X S Sys.init h0) h, ∀ o : GossipObj, Delivers ev o → o.type = R.kind.full →
    o.verify (S.mon z).crypto = .ok → o.payload.p0 = R.pay.p0 → o.period = clk.period → o.payload = R.pay
  noConflict : m.conflictPom.get ⟨go!"0", .CON_INIT, R.pay.p0⟩ = none

/-- The update written at such a moment lists an object of the entity; if it verifies it carries the statement of the round. -/
theorem StatementPeriod.listed {pub : L.BlsSec → L.BlsPub} {R : Round} {T : Int} {h0 h : List SysEvent}
    (H : StatementPeriod X S pub R h0 h) (W : Enough S T (sysRun X S Sys.init (h0 ++ h)).net) (x : Str) (hx : x ∈ S.net.ids)
    (hux : (sysRun X S Sys.init (h0 ++ h)).net.up x) (o : GossipObj) (hf : Fetches X S (sysRun X S Sys.init h0) h x o)
    (hid : o.getID = ⟨R.period, R.kind.init, R.pay.p0⟩) (hv : o.verify (S.mon x).crypto = .ok) (hn : o.signer ≠ [])
    (z : Str) (hz : z ∈ S.net.ids) (huz : (sysRun X S Sys.init (h0 ++ h)).net.up z) (m : MonState) (clk : Clock)
    (P : PublishedIn (X := X) (S := S) R h0 h z m clk) :
    ∃ g : GossipObj, (match R.kind with | .rev => m.revFull | _ => m.sthFull).get ⟨clk.period, R.kind.full, R.pay.p0⟩ = some g ∧
      g.getID = ⟨clk.period, R.kind.full, R.pay.p0⟩ ∧ (g.verify (S.mon z).crypto = .ok → g.payload = R.pay) := by
  obtain ⟨q, hq1, hq2, hq3, hq4⟩ := H.certified W x hx hux o hf hid hv hn z hz huz
  have hm := P.state
  rw [sysRun_mon] at hm
  have hm' : monRun X (S.mon z) initMonitor (monHist X S z Sys.init (h0 ++ h)) = some m := hm
  rw [monHist_append] at hq4 hm'
  rw [monRun_append] at hm'
  obtain ⟨m0, hm0, hm1⟩ := Option.bind_eq_some_iff.1 hm'
  have hin : MonEvent.gossip (some q) ∈ monHist X S z (sysRun X S Sys.init h0) h := by
    rcases List.mem_append.1 hq4 with h1 | h1
    · exact absurd hq2 (P.new _ h1 q (.inl rfl) hq1)
    · exact h1
  have hper : q.period = clk.period := P.inTime _ hin q (.inl rfl) hq1 hq3 hq2
  have hqid : q.getID = ⟨clk.period, R.kind.full, R.pay.p0⟩ := by
    simp only [GossipObj.getID, hper, hq1, hq2]
  have hqt : q.type = .STH_FULL ∨ q.type = .REV_FULL := by
    rw [hq1]; rcases H.kind with hk | hk <;> rw [hk] <;> simp [Kind.full]
  obtain ⟨g, hg1, hg2, hg3⟩ := recent_delivered (X := X) _ hm1 P.first q hqt
    (fun g => g.getID = q.getID ∧ (g.verify (S.mon z).crypto = .ok → g.payload = R.pay)) (by
      intro e he g hd hgid
      refine ⟨hgid, fun hv => ?_⟩
      rw [hqid] at hgid
      exact P.only e he g hd (congrArg GossipID.type hgid) hv (congrArg GossipID.entity hgid) (congrArg GossipID.period hgid)) (.inl hin)
  refine ⟨g, ?_, hg2.trans hqid, hg3⟩
  rw [← hqid]
  unfold recent at hg1
  rw [hq1] at hg1
  rcases H.kind with hk | hk <;> rw [hk] at hg1 ⊢ <;> exact hg1

/-- C116, tree heads: gossipers and monitors run together from start-up, all orders of messages, goroutines and timers. A logger
answers the query of one monitor with its tree head, and shows nobody another one. If at least T gossipers run when nothing is under
way any more, and the signatures were completed and delivered in the minute of the next update of the monitor of `z`, then every
client with the same keys that accepts this update has recorded the root of the tree head for the logger and that minute. Missing:
signatures completed in the minute after (`C116_violated_next_minute`), runs in which a signature is counted twice (C91). -/
theorem C116_clients_record_partial {pub : L.BlsSec → L.BlsPub} {R : Round} {T : Int} {h0 h : List SysEvent} (hk : R.kind = .sth)
    (H : StatementPeriod X S pub R h0 h) (W : Enough S T (sysRun X S Sys.init (h0 ++ h)).net) (x : Str) (hx : x ∈ S.net.ids)
    (hux : (sysRun X S Sys.init (h0 ++ h)).net.up x) (o : GossipObj) (hf : Fetches X S (sysRun X S Sys.init h0) h x o)
    (hid : o.getID = ⟨R.period, .STH_INIT, R.pay.p0⟩) (hv : o.verify (S.mon x).crypto = .ok) (hn : o.signer ≠ [])
    (z : Str) (hz : z ∈ S.net.ids) (huz : (sysRun X S Sys.init (h0 ++ h)).net.up z) (m : MonState) (clk : Clock)
    (P : PublishedIn (X := X) (S := S) R h0 h z m clk) :
    ∃ m' u, monStep X (S.mon z) m (.finish clk) = some m' ∧ m'.files.get (periodIO (S.mon z) clk) = some u ∧
      ∀ cc st st', SameVerify cc (S.mon z).crypto → handleUpdate X (L := L) cc true u st = (.accepted, st') →
        ∃ d, X.decSTH (hexPrefix R.pay.p1) = some d ∧ st'.sthDB.get (R.pay.p0 ++ go!"@" ++ clk.period) = some d.rootHash := by
  obtain ⟨g, hg1, hg2, hg3⟩ := H.listed W x hx hux o hf (by rw [hk]; exact hid) hv hn z hz huz m clk P
  have hm := P.state
  rw [sysRun_mon] at hm
  have hm' : monRun X (S.mon z) initMonitor (monHist X S z Sys.init (h0 ++ h)) = some m := hm
  have inv := storesInv_run X (S.mon z) (fun _ => True) (fun _ _ => trivial) _ (storesInv_init _) (fun _ _ => trivial) hm
  obtain ⟨u, hfile, _, _, _, h1, _⟩ := C43_update_exact X (S.mon z) _ m _ clk hm' rfl
  refine ⟨_, u, rfl, hfile, ?_⟩
  simp only [hk] at hg1 hg2
  have hgl : g ∈ u.sths := (h1 g).2 ⟨by rw [hg2]; exact hg1, congrArg GossipID.period hg2, by
    rw [show g.payload.p0 = R.pay.p0 from congrArg GossipID.entity hg2]; exact P.noConflict⟩
  intro cc st st' hcc hacc
  obtain ⟨_, hp, rfl⟩ := (C50_accepted_iff X cc true u st st').1 hacc
  have hpay : g.payload = R.pay := hg3 (by rw [← verify_congr hcc]; exact (hp.sths g hgl).1 rfl)
  have htree : treeInfo X g = X.decSTH (hexPrefix R.pay.p1) := by unfold treeInfo; rw [hpay]
  have hsome := (hp.sths g hgl).2
  rw [htree] at hsome
  obtain ⟨d, hd⟩ := Option.isSome_iff_exists.1 hsome
  refine ⟨d, hd, ?_⟩
  refine recorded _ _ _ _ (fun g' hg' hkey => ?_) (.inl ⟨g, hgl, ?_⟩)
  · obtain ⟨a1, a2, _⟩ := (h1 g').1 hg'
    rw [a2] at hkey
    have hp0 : g'.payload.p0 = R.pay.p0 := by
      rw [List.append_assoc, List.append_assoc] at hkey
      exact List.append_cancel_right hkey
    have hid' : g'.getID = g.getID := by
      rw [hg2]
      simp only [GossipObj.getID, a2, hp0, (inv.sth _ _ a1).2.2]
      rfl
    rw [hid', hg2] at a1
    have : g' = g := Option.some.inj (a1.symm.trans hg1)
    rw [this, htree, hd]; rfl
  · rw [show g.payload.p0 = R.pay.p0 from congrArg GossipID.entity hg2, show g.period = clk.period from congrArg GossipID.period hg2]

/-- C116, revocations (in the mode without payload optimisation): as above, and a client that has no vector of the CA yet and accepts
the update takes over the vector of the revocation update, so that it never again accepts a certificate revoked in it. Missing in
addition: clients that already have a vector, where the update is ignored (C52). -/
theorem C116_clients_revoke_partial {pub : L.BlsSec → L.BlsPub} {R : Round} {T : Int} {h0 h : List SysEvent} (hk : R.kind = .rev)
    (H : StatementPeriod X S pub R h0 h) (W : Enough S T (sysRun X S Sys.init (h0 ++ h)).net) (x : Str) (hx : x ∈ S.net.ids)
    (hux : (sysRun X S Sys.init (h0 ++ h)).net.up x) (o : GossipObj) (hf : Fetches X S (sysRun X S Sys.init h0) h x o)
    (hid : o.getID = ⟨R.period, .REV_INIT, R.pay.p0⟩) (hv : o.verify (S.mon x).crypto = .ok) (hn : o.signer ≠ [])
    (z : Str) (hz : z ∈ S.net.ids) (huz : (sysRun X S Sys.init (h0 ++ h)).net.up z) (m : MonState) (clk : Clock)
    (P : PublishedIn (X := X) (S := S) R h0 h z m clk) :
    ∃ m' u, monStep X (S.mon z) m (.finish clk) = some m' ∧ m'.files.get (periodIO (S.mon z) clk) = some u ∧
      ∀ cc st st', SameVerify cc (S.mon z).crypto → st.crvDB.get R.pay.p0 = none →
        handleUpdate X (L := L) cc true u st = (.accepted, st') →
        st'.crvDB.get R.pay.p0 = some (getSRHandDCRV X o).2 ∧
        ∀ v us cert, cert.issuerCN = R.pay.p0 → (getSRHandDCRV X o).2.test (cert.rid X) = true →
          verifyCTngExt X cc (runUpdates X cc v us st').2 cert ≠ .accept := by
  obtain ⟨g, hg1, hg2, hg3⟩ := H.listed W x hx hux o hf (by rw [hk]; exact hid) hv hn z hz huz m clk P
  have hm := P.state
  rw [sysRun_mon] at hm
  have hm' : monRun X (S.mon z) initMonitor (monHist X S z Sys.init (h0 ++ h)) = some m := hm
  have inv := storesInv_run X (S.mon z) (fun _ => True) (fun _ _ => trivial) _ (storesInv_init _) (fun _ _ => trivial) hm
  obtain ⟨u, hfile, _, _, _, _, h1, _⟩ := C43_update_exact X (S.mon z) _ m _ clk hm' rfl
  refine ⟨_, u, rfl, hfile, ?_⟩
  simp only [hk] at hg1 hg2
  have hgl : g ∈ u.revs := (h1 g).2 ⟨by rw [hg2]; exact hg1, congrArg GossipID.period hg2, by
    rw [show g.payload.p0 = R.pay.p0 from congrArg GossipID.entity hg2]; exact P.noConflict⟩
  have hopay : o.payload = R.pay := by
    obtain ⟨a, i, b, m1, m2, e1, _, _, _⟩ := hf
    refine (H.answered x i o (answer_event (X := X) (S := S) x _ h i _ (by rw [e1]; simp)) ?_ hv (congrArg GossipID.entity hid)).1
    rw [hk]; exact congrArg GossipID.type hid
  intro cc st st' hcc hnone hacc
  have hver : g.verify cc = .ok := (C50_accepted_was_verified X cc u st st' hacc).1 g (.inl hgl)
  have hpay : g.payload = R.pay := hg3 (by rw [← verify_congr hcc]; exact hver)
  have hdelta : deltaOf X g = (R.pay.p0, (getSRHandDCRV X o).2) := by
    unfold deltaOf getSRHandDCRV; rw [hpay, hopay]
  have hfind : (u.revs.map (deltaOf X)).find? (fun y => y.1 = R.pay.p0) = some (R.pay.p0, (getSRHandDCRV X o).2) := by
    cases hfd : (u.revs.map (deltaOf X)).find? (fun y => y.1 = R.pay.p0) with
    | none =>
      have := List.find?_eq_none.1 hfd _ (List.mem_map_of_mem hgl)
      simp [hdelta] at this
    | some y =>
      have hy := List.find?_some hfd
      obtain ⟨g', hg', rfl⟩ := List.mem_map.1 (List.mem_of_find?_eq_some hfd)
      have hp0 : g'.payload.p0 = R.pay.p0 := of_decide_eq_true hy
      obtain ⟨a1, a2, _⟩ := (h1 g').1 hg'
      have hid' : g'.getID = g.getID := by
        rw [hg2]
        simp only [GossipObj.getID, a2, hp0, (inv.rev _ _ a1).2.2]
        rfl
      rw [hid', hg2] at a1
      have : g' = g := Option.some.inj (a1.symm.trans hg1)
      rw [this, hdelta]
  refine ⟨?_, fun v us cert hc hr => ?_⟩
  · rw [C48_client_first_delta_partial X cc true u st st' hacc, hnone, hfind]; rfl
  · exact C52_first_delta_effective_partial X cc true v u st st' _ R.pay.p0 _ hacc hnone hfind hr us cert hc rfl

/-! ### Examples -/

theorem sths_delivered {c : MonConf L} {evs : List MonEvent} {u : ClientUpdate} (hu : Published X c evs u) {g : GossipObj}
    (hg : g ∈ u.sths) : g.type = .STH_FULL ∧ ∃ e ∈ evs, Delivers e g := by
  obtain ⟨a, clk, b, s1, s2, rfl, h1, h2, h3⟩ := hu
  obtain ⟨u', hu', _, _, _, k1, _⟩ := C43_update_exact X c a s1 s2 clk h1 h2
  cases h3.symm.trans hu'
  have key : ∀ (evs : List MonEvent) (s s' : MonState), StoresInv (fun g => ∃ e ∈ a, Delivers e g) s → (∀ e ∈ evs, e ∈ a) →
      monRun X c s evs = some s' → StoresInv (fun g => ∃ e ∈ a, Delivers e g) s' := by
    intro evs
    induction evs with
    | nil => intro s s' h _ hr; cases hr; exact h
    | cons e t ih =>
      intro s s' h hm hr
      simp only [monRun] at hr
      cases he : monStep X c s e with
      | none => rw [he] at hr; cases hr
      | some s1 =>
        rw [he] at hr
        refine ih s1 s' ?_ (fun e h => hm e (List.mem_cons_of_mem _ h)) hr
        refine storesInv_stepD X c _ h (fun g hg => ⟨e, hm e (by simp), .inl hg⟩) ?_ he
        intro g i hg _
        exact ⟨e, hm e (by simp), .inr ⟨i, hg⟩⟩
  obtain ⟨_, ⟨e, he, hd⟩, ht⟩ := (key a initMonitor s1 (storesInv_init _) (fun _ h => h) h1).sth _ _ ((k1 g).1 hg).1
  exact ⟨ht, e, List.mem_append_left _ he, hd⟩

theorem unrecorded (l : List GossipObj) (db : GoMap Str Str) (k : Str) (h : ∀ g ∈ l, g.payload.p0 ++ go!"@" ++ g.period ≠ k) :
    (l.foldl (recordSTH X) db).get k = db.get k := by
  induction l generalizing db with
  | nil => rfl
  | cons a t ih =>
    rw [List.foldl_cons, ih _ fun g hg => h g (by simp [hg])]
    unfold recordSTH
    exact GoMap.get_set_ne _ _ fun e => h a (by simp) e.symm

namespace Ref

/-- L1's tree head of minute 5. -/
def headPay : Pay3 := ⟨go!"L1", hexEncode (xlib.encSTH ⟨go!"L1", go!"t", go!"05", go!"rootA", 7⟩), go!"7"⟩
def headSth : GossipObj :=
  { sth with period := go!"05", payload := headPay, sig := ⟨rsaStr (go!"L1") (headPay.p0 ++ headPay.p1 ++ headPay.p2), []⟩ }

/-- C1's revocation of certificate 2. -/
def headRev : GossipObj := (revRound at34).getD sth

def headRound : Round := ⟨.sth, go!"05", headPay⟩
def revHeadRound : Round := ⟨.rev, go!"35", headRev.payload⟩

def clk35 : Clock := { clk with period := go!"35" }

/-- The event at another time. -/
def _root_.CTng.NEvent.atClk (c : Clock) : NEvent → NEvent
  | .node x (_, e) => .node x (c, e)
  | .deliver i _ => .deliver i c

/-- The monitor of G1 queries, the answer to query `n` is `o`; the gossipers sign it; what they post reaches the monitors. -/
def headDone (c : Clock) (n : Nat) (o : GossipObj) : List SysEvent :=
  [.mon (go!"G1") (.query c), .mon (go!"G1") (.answer n (.obj o)), .arrive 0 c] ++ ((signConc.drop 1).map fun e => .net (e.atClk c)) ++
  List.replicate 4 (.arrive 0 c)

/-- As before, but the signing takes place in minute 6, after the monitors have written their updates of minute 5. -/
def headSlow : List SysEvent :=
  [.mon (go!"G1") (.query clk), .mon (go!"G1") (.answer 0 (.obj headSth)), .arrive 0 clk] ++ ((floodHist.drop 1).map .net) ++
  [.mon (go!"G1") (.finish clk), .mon (go!"G2") (.finish clk)] ++ ((signConc.drop floodHist.length).map fun e => .net (e.atClk clk06)) ++
  List.replicate 4 (.arrive 0 clk06)

/-- Nothing is posted or answered but the object. -/
def onlyObj (o : GossipObj) (e : SysEvent) : Bool :=
  match e with
  | .net ne => ne.noWipe && !ne.isRecv
  | .mon _ (.answer _ (.obj q)) => decide (q = o)
  | _ => true

theorem head_period (R : Round) (o : GossipObj) (h : List SysEvent) (hk : R.kind = .sth ∨ R.kind = .rev) (hp0 : R.pay.p0 ≠ [])
    (hpay : o.payload = R.pay) (hper : o.period = R.period) (honly : h.all (onlyObj o) = true)
    (hq : quietCheck mesh (sysRun xlib sysConf Sys.init h).net = true)
    (hp : (sysRun xlib sysConf Sys.init h).posts = [])
    (ht : (mesh.ids.all fun x => ((sysRun xlib sysConf Sys.init h).net.node x).g.timers.isEmpty) = true)
    (hb : (mesh.ids.all fun x => !((sysRun xlib sysConf Sys.init h).net.node x).g.blacklist.has R.pay.p0) = true)
    (hd : DistinctFrags mesh R (sysRun xlib sysConf Sys.init h).net) : StatementPeriod xlib sysConf blsPub R [] h where
  net := mesh_net _ hp0
  kind := hk
  keys := fun _ _ => ⟨rfl, rfl, fun _ => rfl, fun _ => rfl⟩
  start := mesh_cstart _
  fresh := by intro x o h; cases h
  noWipe := by
    rintro ev he ne rfl
    have := List.all_eq_true.1 honly _ he
    simp only [onlyObj, Bool.and_eq_true] at this
    exact this.1
  answered := by
    intro x i q he _ _ _
    have : q = o := of_decide_eq_true (List.all_eq_true.1 honly _ he)
    rw [this]; exact ⟨hpay, hper⟩
  posted := by
    intro x c n q he
    have := List.all_eq_true.1 honly _ he
    simp [onlyObj, NEvent.isRecv] at this
  ended := ⟨quiet_of_check hq, by
    intro x hx _ g hg
    have := List.all_eq_true.1 ht x hx
    rw [List.isEmpty_iff] at this
    rw [List.nil_append, this] at hg; cases hg⟩
  posts := hp
  distinct := hd
  clean := by
    intro x hx _
    have := List.all_eq_true.1 hb x hx
    simp only [Bool.not_eq_true'] at this
    exact this

theorem headDone_sth : StatementPeriod xlib sysConf blsPub headRound [] (headDone clk 0 headSth) :=
  head_period _ headSth _ (.inl rfl) (by decide) rfl rfl (by decide +kernel) (by decide +kernel) (by decide +kernel) (by decide +kernel)
    (by decide +kernel) (distinct_of_check (by decide +kernel))

theorem headDone_rev : StatementPeriod xlib sysConf blsPub revHeadRound [] (headDone clk35 1 headRev) :=
  head_period _ headRev _ (.inr rfl) (by decide +kernel) rfl (by decide +kernel) (by decide +kernel) (by decide +kernel) (by decide +kernel)
    (by decide +kernel) (by decide +kernel) (distinct_of_check (by decide +kernel))

theorem headSlow_sth : StatementPeriod xlib sysConf blsPub headRound [] headSlow :=
  head_period _ headSth _ (.inl rfl) (by decide) rfl rfl (by decide +kernel) (by decide +kernel) (by decide +kernel) (by decide +kernel)
    (by decide +kernel) (distinct_of_check (by decide +kernel))

theorem mesh_enough {s : Net} (h : ∀ x ∈ mesh.ids, s.up x) : Enough sysConf 2 s :=
  ⟨fun _ _ => rfl, mesh_ids, [go!"G1", go!"G2"], by decide, by decide, fun x hx => ⟨hx, h x hx⟩⟩

/-- What gossiper `x` makes of the statement. -/
def headFull (h : List SysEvent) (p : Str) (x : Str) : GossipObj :=
  (((sysRun xlib sysConf Sys.init h).net.node x).g.storage.sthFull.get ⟨p, .STH_FULL, go!"L1"⟩).getD sth
def revHeadFull (x : Str) : GossipObj :=
  (((sysRun xlib sysConf Sys.init (headDone clk35 1 headRev)).net.node x).g.storage.revFull.get ⟨go!"35", .REV_FULL, go!"C1"⟩).getD sth

theorem headDone_up (x : Str) (hx : x ∈ mesh.ids) : (sysRun xlib sysConf Sys.init (headDone clk 0 headSth)).net.up x :=
  up_of_all (by decide +kernel) x hx
theorem headRev_up (x : Str) (hx : x ∈ mesh.ids) : (sysRun xlib sysConf Sys.init (headDone clk35 1 headRev)).net.up x :=
  up_of_all (by decide +kernel) x hx
theorem headSlow_up (x : Str) (hx : x ∈ mesh.ids) : (sysRun xlib sysConf Sys.init headSlow).net.up x :=
  up_of_all (by decide +kernel) x hx

theorem headDone_hist1 : monHist xlib sysConf (go!"G1") Sys.init (headDone clk 0 headSth) =
    [.query clk, .answer 0 (.obj headSth), .gossip (some headSth), .gossip (some (headFull (headDone clk 0 headSth) (go!"05") (go!"G1")))] := by
  decide +kernel
theorem headDone_hist2 : monHist xlib sysConf (go!"G2") Sys.init (headDone clk 0 headSth) =
    [.gossip (some headSth), .gossip (some (headFull (headDone clk 0 headSth) (go!"05") (go!"G2")))] := by decide +kernel
theorem headRev_hist1 : monHist xlib sysConf (go!"G1") Sys.init (headDone clk35 1 headRev) =
    [.query clk35, .answer 1 (.obj headRev), .gossip (some headRev), .gossip (some (revHeadFull (go!"G1")))] := by decide +kernel
theorem headRev_hist2 : monHist xlib sysConf (go!"G2") Sys.init (headDone clk35 1 headRev) =
    [.gossip (some headRev), .gossip (some (revHeadFull (go!"G2")))] := by decide +kernel

theorem headFull_is : (headFull (headDone clk 0 headSth) (go!"05") (go!"G2")).type = .STH_FULL ∧
    (headFull (headDone clk 0 headSth) (go!"05") (go!"G2")).payload = headPay ∧
    (headFull (headDone clk 0 headSth) (go!"05") (go!"G2")).period = go!"05" := by decide +kernel
theorem revHeadFull_is : (revHeadFull (go!"G2")).type = .REV_FULL ∧ (revHeadFull (go!"G2")).payload = headRev.payload ∧
    (revHeadFull (go!"G2")).period = clk35.period := by decide +kernel

theorem fetches_of {h : List SysEvent} {x : Str} {o : GossipObj} {i : Nat} {a : MonEvent} {b : List MonEvent}
    (hh : monHist xlib sysConf x Sys.init h = a :: .answer i (.obj o) :: b)
    (hs : (monRun xlib (sysConf.mon x) initMonitor [a]).bind (fun m => (monStep xlib (sysConf.mon x) m (.answer i (.obj o))).map fun m' =>
      decide (m'.sent = m.sent ++ [o])) = some true) : Fetches xlib sysConf Sys.init h x o := by
  obtain ⟨m, hm, h1⟩ := Option.bind_eq_some_iff.1 hs
  obtain ⟨m', hm', h2⟩ := Option.map_eq_some_iff.1 h1
  exact ⟨[a], i, b, m, m', hh, hm, hm', of_decide_eq_true h2⟩

theorem head_published (R : Round) (c : Clock) (h : List SysEvent) (o f : GossipObj) (m : MonState)
    (hm : (sysRun xlib sysConf Sys.init h).mon (go!"G2") = some m)
    (hh : monHist xlib sysConf (go!"G2") Sys.init h = [.gossip (some o), .gossip (some f)]) (ho : o.type ≠ R.kind.full)
    (hf : f.payload = R.pay ∧ f.period = c.period)
    (hc : ((sysRun xlib sysConf Sys.init h).mon (go!"G2")).map (·.conflictPom.get ⟨go!"0", .CON_INIT, R.pay.p0⟩) = some none) :
    PublishedIn (X := xlib) (S := sysConf) R [] h (go!"G2") m c := by
  have hd : ∀ ev ∈ monHist xlib sysConf (go!"G2") Sys.init h, ∀ q : GossipObj, Delivers ev q → q.type = R.kind.full → q = f := by
    rw [hh]
    intro ev he q hd ht
    simp only [List.mem_cons, List.not_mem_nil, or_false] at he
    rcases he with rfl | rfl <;> rcases hd with h | ⟨_, h⟩ <;> cases h
    · exact absurd ht ho
    · rfl
  refine ⟨hm, fun ev he => absurd he (by simp [monHist]), ?_, ?_, ?_, ?_⟩
  · show noFinish (monHist xlib sysConf (go!"G2") Sys.init h) = true
    rw [hh]; rfl
  · intro ev he q hq ht _ _
    rw [hd ev he q hq ht]; exact hf.2
  · intro ev he q hq ht _ _ _
    rw [hd ev he q hq ht]; exact hf.1
  · rw [hm] at hc
    exact Option.some.inj hc

/-- L1's tree head reached the monitor of G1 only; clients of the monitor of G2 record its root. -/
example (m : MonState) (hm : (sysRun xlib sysConf Sys.init (headDone clk 0 headSth)).mon (go!"G2") = some m) :
    ∃ m' u, monStep xlib (sysConf.mon (go!"G2")) m (.finish clk) = some m' ∧
      m'.files.get (periodIO (sysConf.mon (go!"G2")) clk) = some u ∧
      ∀ cc st st', SameVerify cc (sysConf.mon (go!"G2")).crypto → handleUpdate xlib (L := lib) cc true u st = (.accepted, st') →
        ∃ d, xlib.decSTH (hexPrefix headPay.p1) = some d ∧ st'.sthDB.get (go!"L1" ++ go!"@" ++ go!"05") = some d.rootHash :=
  C116_clients_record_partial rfl headDone_sth (mesh_enough headDone_up) (go!"G1") (by decide) (headDone_up _ (by decide)) headSth
    (fetches_of headDone_hist1 (by decide +kernel))
    rfl (by decide +kernel) (by decide) (go!"G2") (by decide) (headDone_up _ (by decide)) m clk
    (head_published _ _ _ headSth _ m hm headDone_hist2 (by decide) headFull_is.2 (by decide +kernel))

/-- A new client accepts that update. -/
example : ((sysRun xlib sysConf Sys.init (headDone clk 0 headSth)).mon (go!"G2")).map (fun m =>
    let m' := endPeriod xlib (sysConf.mon (go!"G2")) clk m
    let z := handleUpdate xlib m1 true ((m'.files.get (periodIO (sysConf.mon (go!"G2")) clk)).getD emptyUpdate) initClient
    (z.1, z.2.sthDB.get (go!"L1@05"))) = some (.accepted, some (go!"rootA")) := by decide +kernel

/-- C1 showed its revocation of certificate 2 to the monitor of G1 only; clients of the monitor of G2 do not accept certificate 2. -/
example (m : MonState) (hm : (sysRun xlib sysConf Sys.init (headDone clk35 1 headRev)).mon (go!"G2") = some m) :
    ∃ m' u, monStep xlib (sysConf.mon (go!"G2")) m (.finish clk35) = some m' ∧
      m'.files.get (periodIO (sysConf.mon (go!"G2")) clk35) = some u ∧
      ∀ cc st st', SameVerify cc (sysConf.mon (go!"G2")).crypto → st.crvDB.get headRev.payload.p0 = none →
        handleUpdate xlib (L := lib) cc true u st = (.accepted, st') →
        st'.crvDB.get headRev.payload.p0 = some (getSRHandDCRV xlib headRev).2 ∧
        ∀ v us cert, cert.issuerCN = headRev.payload.p0 → (getSRHandDCRV xlib headRev).2.test (cert.rid xlib) = true →
          verifyCTngExt xlib cc (runUpdates xlib cc v us st').2 cert ≠ .accept :=
  C116_clients_revoke_partial rfl headDone_rev (mesh_enough headRev_up) (go!"G1") (by decide) (headRev_up _ (by decide)) headRev
    (fetches_of headRev_hist1 (by decide +kernel))
    (by decide +kernel) (by decide +kernel) (by decide +kernel) (go!"G2") (by decide) (headRev_up _ (by decide)) m clk35
    (head_published _ _ _ headRev _ m hm headRev_hist2 (by decide +kernel) revHeadFull_is.2 (by decide +kernel))

/-- A new client accepts that update, too. -/
example : ((sysRun xlib sysConf Sys.init (headDone clk35 1 headRev)).mon (go!"G2")).map (fun m =>
    let m' := endPeriod xlib (sysConf.mon (go!"G2")) clk35 m
    let z := handleUpdate xlib m1 true ((m'.files.get (periodIO (sysConf.mon (go!"G2")) clk35)).getD emptyUpdate) initClient
    (z.1, headRev.payload.p0, (z.2.crvDB.get (go!"C1")).map (·.test 2))) = some (.accepted, go!"C1", some true) := by decide +kernel

theorem headSlow_hist1 : monHist xlib sysConf (go!"G1") Sys.init headSlow =
    [.query clk, .answer 0 (.obj headSth), .finish clk, .gossip (some headSth), .gossip (some (headFull headSlow (go!"06") (go!"G1")))] := by
  decide +kernel
theorem headSlow_hist2 : monHist xlib sysConf (go!"G2") Sys.init headSlow =
    [.finish clk, .gossip (some headSth), .gossip (some (headFull headSlow (go!"06") (go!"G2")))] := by decide +kernel
theorem headSlow_is (z : Str) (hz : z ∈ mesh.ids) : (headFull headSlow (go!"06") z).type = .STH_FULL ∧
    (headFull headSlow (go!"06") z).payload = headPay ∧ (headFull headSlow (go!"06") z).period = go!"06" := by
  rcases mem_mesh hz with rfl | rfl <;> decide +kernel

theorem headSlow_delivers (z : Str) (hz : z ∈ mesh.ids) (e : MonEvent) (he : e ∈ monHist xlib sysConf z Sys.init headSlow) (g : GossipObj)
    (hd : Delivers e g) (ht : g.type = .STH_FULL) : g.period = go!"06" := by
  have hper := (headSlow_is z hz).2.2
  have hs : headSth.type ≠ .STH_FULL := by decide
  rcases mem_mesh hz with rfl | rfl
  · rw [headSlow_hist1] at he
    generalize headFull headSlow (go!"06") (go!"G1") = f at he hper
    generalize headSth = q at he hs
    simp only [List.mem_cons, List.not_mem_nil, or_false] at he
    rcases he with rfl | rfl | rfl | rfl | rfl <;> rcases hd with h | ⟨_, h⟩ <;> cases h
    · exact absurd ht hs
    · exact absurd ht hs
    · exact hper
  · rw [headSlow_hist2] at he
    generalize headFull headSlow (go!"06") (go!"G2") = f at he hper
    generalize headSth = q at he hs
    simp only [List.mem_cons, List.not_mem_nil, or_false] at he
    rcases he with rfl | rfl | rfl <;> rcases hd with h | ⟨_, h⟩ <;> cases h
    · exact absurd ht hs
    · exact hper

theorem key_parts {a b : Str} (h : a ++ go!"@" ++ b = go!"L1@05") : a = go!"L1" ∧ b = go!"05" := by
  match a, h with
  | [], h => simp at h
  | [_], h => simp at h
  | [_, _], h => simp at h; simp [h]
  | [_, _, _], h => simp at h
  | [_, _, _, _], h => simp at h
  | _ :: _ :: _ :: _ :: _ :: t, h =>
    have := congrArg List.length h
    simp at this

end Ref

open Ref in
/-- C116 fails when the minute turns before the signatures are complete: L1 shows its tree head of minute 5 to one monitor, the
gossipers exchange it at once, but sign it in minute 6. Both gossipers complete the signatures and both monitors have the result, dated
minute 6. As long as nobody delivers a FULL tree head of L1 dated minute 5, no update of either monitor makes a client record a root
for L1 and minute 5: a certificate with this tree head only is not accepted after it. -/
theorem C116_violated_next_minute :
    StatementPeriod xlib sysConf blsPub headRound [] headSlow ∧ Enough sysConf 2 (sysRun xlib sysConf Sys.init headSlow).net ∧
    Fetches xlib sysConf Sys.init headSlow (go!"G1") headSth ∧ headSth.getID = ⟨go!"05", .STH_INIT, go!"L1"⟩ ∧
    ∀ z ∈ mesh.ids,
      (∃ m g, (sysRun xlib sysConf Sys.init headSlow).mon z = some m ∧ m.sthFull.get ⟨go!"06", .STH_FULL, go!"L1"⟩ = some g ∧
        g.payload = headSth.payload ∧ g.verify (sysConf.mon z).crypto = .ok) ∧
      ∀ post : List MonEvent,
        (∀ e ∈ post, ∀ g, Delivers e g → g.type = .STH_FULL → g.payload.p0 = go!"L1" → g.period ≠ go!"05") →
        ∀ u, Published xlib (sysConf.mon z) (monHist xlib sysConf z Sys.init headSlow ++ post) u →
          ∀ (cc : CryptoConfig lib) v st st', st.sthDB.get (go!"L1@05") = none → handleUpdate xlib cc v u st = (.accepted, st') →
            st'.sthDB.get (go!"L1@05") = none ∧
            ∀ cert, (∀ e ∈ (cert.parseExt xlib).loggers, e.sth = headSth) → verifyCTngExt xlib cc st' cert ≠ .accept := by
  refine ⟨headSlow_sth, mesh_enough headSlow_up, fetches_of headSlow_hist1 (by decide +kernel), rfl, fun z hz => ⟨?_, ?_⟩⟩
  · have : ((sysRun xlib sysConf Sys.init headSlow).mon z).bind (fun m => (m.sthFull.get ⟨go!"06", .STH_FULL, go!"L1"⟩).map fun g =>
        (g.payload, g.verify (sysConf.mon z).crypto)) = some (headSth.payload, .ok) := by
      rcases mem_mesh hz with rfl | rfl <;> decide +kernel
    obtain ⟨m, hm, h1⟩ := Option.bind_eq_some_iff.1 this
    obtain ⟨g, hg, h2⟩ := Option.map_eq_some_iff.1 h1
    exact ⟨m, g, hm, hg, congrArg Prod.fst h2, congrArg Prod.snd h2⟩
  · intro post hpost u hu cc v st st' hnone hacc
    have hsths : ∀ g ∈ u.sths, g.payload.p0 ++ go!"@" ++ g.period ≠ go!"L1@05" := by
      intro g hg hkey
      obtain ⟨ht, e, he, hd⟩ := sths_delivered hu hg
      obtain ⟨h1, h2⟩ := key_parts hkey
      rcases List.mem_append.1 he with he | he
      · have := headSlow_delivers z hz e he g hd ht
        rw [h2] at this; cases this
      · exact hpost e he g hd ht h1 h2
    obtain ⟨_, _, rfl⟩ := (C50_accepted_iff xlib cc v u st st').1 hacc
    have hdb : (u.sths.foldl (recordSTH xlib) st.sthDB).get (go!"L1@05") = none := by rw [unrecorded _ _ _ hsths]; exact hnone
    refine ⟨hdb, fun cert hall hcert => ?_⟩
    obtain ⟨⟨e, he, _, _, d, hd1, hd2, _⟩, _⟩ := C51_accepted_partial xlib cc _ cert hcert
    rw [hall e he] at hd1 hd2
    have hd2' : ((u.sths.foldl (recordSTH xlib) st.sthDB).get (go!"L1@05")).getD [] = d.rootHash := hd2
    rw [hdb] at hd2'
    have hr : (treeInfo xlib headSth).map (·.rootHash) = some (go!"rootA") := by decide +kernel
    rw [hd1] at hr
    have : d.rootHash = go!"rootA" := Option.some.inj hr
    rw [this] at hd2'
    cases hd2'

end CTng
