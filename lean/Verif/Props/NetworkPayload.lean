import Verif.Proofs.NetworkPayload
import Verif.Props.GossiperMisc
/- C90: revocation updates of any size reach all gossipers. -/
set_option autoImplicit false

namespace CTng
variable {L : Lib}

/-- A request with this notification as its body is on its way to `z`. -/
def NoteFlying (s : Net) (route z sender : Str) (k : GossipID) : Prop :=
  ∃ m ∈ s.flight, m.dst = z ∧ m.route = route ∧ ∃ n, m.body = .notif n ∧ Asks k n ∧ n.sender = sender

/-- Gossiper `x` can hand out a revocation update of the key, and `y` is going to ask for it. -/
def Asking (k : GossipID) (s : Net) (x y : Str) : Prop :=
  Cached (s.node x) k ∧
  (NoteFlying s (go!"/gossip/new_payload_notification") y x k ∨
   (∃ b n, Pending (s.node y) (.notify b n) ∧ Asks k n ∧ n.sender = x) ∨
   NoteFlying s (go!"/gossip/new_payload_request") x y k ∨
   (∃ b n, Pending (s.node x) (.request b n) ∧ Asks k n ∧ n.sender = y))

structure RevNetInv (N : NetConf L) (k : GossipID) (s : Net) : Prop where
  reach : ∀ x, CReach (N.conf x) (s.node x)
  inv : ∀ x ∈ N.ids, s.up x → NodeInv (N.conf x) (s.node x) k
  pay : ∀ x ∈ N.ids, s.up x → PayInv (N.conf x) (s.node x) k
  flight : ∀ m ∈ s.flight, ∀ o, m.body = .obj o → o.getID = k → o.signer ≠ []
  reaches : ∀ x ∈ N.ids, ∀ y ∈ N.ids, x ≠ y → s.up x → s.up y → HeldKey (s.node x) k → Reaches N k s x y ∨ Asking k s x y

/-- Every gossiper sends under its own address. -/
def OwnAddress (N : NetConf L) : Prop := ∀ x ∈ N.ids, (N.conf x).crypto.selfID = x

theorem nodeStep_rev {N : NetConf L} {k : GossipID} {s s1 : Net} (hM : Mesh N) (hA : OwnAddress N) (hk : k.type = .REV_INIT)
    (hI : RevNetInv N k s) (z : Str) (hz : z ∈ N.ids) (e : Clock × CEvent) (he : e.2 ≠ .periodic) (hn : s1.node = s.node)
    (her : ∀ n o, e.2 = .recv n o → o.getID = k →
      o.signer ≠ [] ∧ (((N.conf z).jsonLen o : Int) > (N.conf z).optThreshold → n > (N.conf z).optThreshold))
    (hsub : ∀ m ∈ s1.flight, m ∈ s.flight)
    (hfl : ∀ m ∈ s.flight, m ∈ s1.flight ∨ (m.dst = z ∧ routeEvent (N.conf z) m = some e.2)) :
    RevNetInv N k (nodeStep N s1 z e) := by
  have hft : FloodType k.type := .inr (.inr hk)
  have hnode := nodeStep_node N s1 z e hz
  have hflight : ∀ m, m ∈ s1.flight → m ∈ (nodeStep N s1 z e).flight := by
    intro m hm; simp only [nodeStep, if_pos hz]; exact List.mem_append_left _ hm
  have hpost : ∀ m, m ∈ postsOf ((cstep (N.conf z) (s.node z) e).g.out.drop (s.node z).g.out.length) →
      m ∈ (nodeStep N s1 z e).flight := by
    intro m hm; simp only [nodeStep, if_pos hz, hn]; exact List.mem_append_right _ hm
  rw [hn] at hnode
  have hself : (nodeStep N s1 z e).node z = cstep (N.conf z) (s.node z) e := by rw [hnode, if_pos rfl]
  have hother : ∀ y, y ≠ z → (nodeStep N s1 z e).node y = s.node y := fun y hy => by rw [hnode, if_neg hy]
  have hupo : ∀ y, (nodeStep N s1 z e).up y → s.up y := by
    intro y hy
    by_cases e' : y = z
    · subst e'; unfold Net.up at hy ⊢; rw [hself] at hy; exact up_before _ hy
    · unfold Net.up at hy ⊢; rw [hother y e'] at hy; exact hy
  have hupz : (nodeStep N s1 z e).up z → (cstep (N.conf z) (s.node z) e).g.crashed = false := by
    intro hu; unfold Net.up at hu; rw [hself] at hu; exact hu
  have hact : (nodeStep N s1 z e).up z → Act (N.conf z) (s.node z) ((nodeStep N s1 z e).node z) := by
    intro hu; rw [hself]; exact cstep_act _ _ _ (hupz hu)
  have hnw : ∀ x ∈ N.ids, s.up x → ¬ HasFrame (s.node x) .wipe := fun x hx hu =>
    (hI.inv x hx hu).noWipe.resolve_left (by rw [hk]; simp)
  have hcache : ∀ x ∈ N.ids, (nodeStep N s1 z e).up x → Cached (s.node x) k → Cached ((nodeStep N s1 z e).node x) k := by
    intro x hx hu hc
    by_cases e' : x = z
    · subst e'; exact hc.act (hI.reach x).sound (hnw x hx (hupo x hu)) (hact hu)
    · rw [hother x e']; exact hc
  have hpay : ∀ x ∈ N.ids, (nodeStep N s1 z e).up x → PayInv (N.conf x) ((nodeStep N s1 z e).node x) k := by
    intro x hx hu
    by_cases e' : x = z
    · subst e'
      rw [hself]
      exact (hI.pay x hx (hupo x hu)).step (hI.reach x).sound (hI.inv x hx (hupo x hu)) (hM.threshold x hx) hk e (hupz hu) her
    · rw [hother x e']; exact hI.pay x hx (hupo x hu)
  have hkeep : ∀ x f, x ≠ z → Pending (s.node x) f → Pending ((nodeStep N s1 z e).node x) f := fun x f h hp => by
    rw [hother x h]; exact hp
  refine ⟨?_, ?_, hpay, ?_, ?_⟩
  · intro y
    by_cases e' : y = z
    · subst e'; rw [hself]; exact (hI.reach y).step e
    · rw [hother y e']; exact hI.reach y
  · intro y hy hu
    by_cases e' : y = z
    · subst e'
      have hi := hI.inv y hy (hupo y hu)
      refine hi.act (hI.reach y).sound hft (hact hu) ?_
      rw [hself]; exact hi.noWipe.cstep (.inr he)
    · rw [hother y e']; exact hI.inv y hy (hupo y hu)
  · intro m hm o hb hid
    simp only [nodeStep, if_pos hz, hn] at hm
    rcases List.mem_append.1 hm with h | h
    · exact hI.flight m (hsub m h) o hb hid
    · have hty : o.type = .REV_INIT := (congrArg GossipID.type hid).trans hk
      obtain ⟨hu, h1 | h1⟩ := cstep_post_rev (s.node z) (hI.reach z).sound e m o hty h hb
      · exact (hI.pay z hz hu).signed _ o h1.has rfl hid
      · rw [hid] at h1; exact (hI.pay z hz hu).cache o h1
  · intro x hx y hy hxy hux huy hheld
    have hux0 := hupo x hux
    have huy0 := hupo y huy
    have hdone : Cached ((nodeStep N s1 z e).node y) k → Reaches N k (nodeStep N s1 z e) x y := by
      intro hc
      rcases (hpay y hy huy).learns hc with h | ⟨o, ho, h⟩
      · exact .inl h
      · exact .inr (.inl ⟨o, ho.transfer (hM.keys y hy x hx), h⟩)
    by_cases hh0 : HeldKey (s.node x) k
    · rcases hI.reaches x hx y hy hxy hux0 huy0 hh0 with (h | ⟨o, ho, h⟩ | ⟨o, ho, m, hm, hd, hr, hb⟩ | ⟨o, ho, h⟩) |
        ⟨hc, ⟨m, hm, hd, hr, n, hb, ha, hsd⟩ | ⟨b, n, hp, ha, hsd⟩ | ⟨m, hm, hd, hr, n, hb, ha, hsd⟩ | ⟨b, n, hp, ha, hsd⟩⟩
      · left; left
        by_cases e' : y = z
        · subst e'; exact h.act (hI.reach y).sound (hI.inv y hy huy0).noWipe (hact huy)
        · rw [hother y e']; exact h
      · left
        by_cases e' : y = z
        · subst e'
          have := learn_act (hI.reach y).sound (hI.inv y hy huy0) (hM.threshold y hy) hft
            (ho.transfer (hM.keys x hx y hy)) (hact huy) h
          rcases this with h | h
          · exact .inl h
          · exact .inr (.inl ⟨o, ho, h⟩)
        · exact .inr (.inl ⟨o, ho, by rw [hother y e']; exact h⟩)
      · left
        rcases hfl m hm with h | ⟨hz', h⟩
        · exact .inr (.inr (.inl ⟨o, ho, m, hflight m h, hd, hr, hb⟩))
        · have hyz : y = z := hd.symm.trans hz'
          subst hyz
          unfold routeEvent at h
          rw [hb] at h
          simp only [if_pos hr, Option.some.injEq] at h
          refine .inr (.inl ⟨o, ho, .recv ((N.conf y).jsonLen o) o, .inl ⟨_, rfl⟩, ?_⟩)
          rw [hself]
          have := cstep_recv (N.conf y) (s.node y) e.1 ((N.conf y).jsonLen o) o huy0
          rw [h] at this
          exact this
      · have hot : o.type = .REV_INIT := (congrArg GossipID.type ho.id).trans hk
        by_cases e' : x = z
        · subst e'
          rcases send_act_rev hot (hact hux) h with h | h | ⟨hl, ⟨f, hf1, hf2, hf3⟩, h⟩
          · exact .inl (.inr (.inr (.inr ⟨o, ho, h⟩)))
          · refine .inl (.inr (.inr (.inl ⟨o, ho, ⟨y, endpointOf o.type, .obj o⟩, ?_, rfl, endpoint_obj (by rw [hot]; exact .inr (.inr rfl)), rfl⟩)))
            have := h y (hM.connected x hx y hy hxy)
            rw [hself] at this
            exact hpost _ this
          · have hca : Cached (s.node x) k := by
              rcases (hI.pay x hx hux0).large f o hf3 hf1 ho.id ho.ok hl with ⟨n, h1, _⟩ | h1
              · exact absurd h1 (hf2 n)
              · exact h1
            have := h y (hM.connected x hx y hy hxy)
            rw [hself] at this
            have hid := ho.id
            exact .inr ⟨hcache x hx hux hca, .inl ⟨_, hpost _ this, rfl, rfl, _, rfl,
              ⟨congrArg GossipID.period hid, congrArg GossipID.entity hid⟩, hA x hx⟩⟩
        · exact .inl (.inr (.inr (.inr ⟨o, ho, by rw [hother x e']; exact h⟩)))
      · right
        refine ⟨hcache x hx hux hc, ?_⟩
        rcases hfl m hm with h | ⟨hz', h⟩
        · exact .inl ⟨m, hflight m h, hd, hr, n, hb, ha, hsd⟩
        · have hyz : y = z := hd.symm.trans hz'
          subst hyz
          unfold routeEvent at h
          rw [hb] at h
          simp only [if_pos hr, Option.some.injEq] at h
          refine .inr (.inl ⟨(N.conf y).notifLen n, n, ?_, ha, hsd⟩)
          rw [hself]
          have := cstep_notify (N.conf y) (s.node y) e.1 ((N.conf y).notifLen n) n huy0
          rw [h] at this
          exact this
      · by_cases e' : y = z
        · subst e'
          rcases notify_act hk ha (hact huy) hp with h | h | h
          · exact .inr ⟨hcache x hx hux hc, .inr (.inl ⟨b, n, h, ha, hsd⟩)⟩
          · exact .inl (hdone (hcache y hy huy h))
          · rw [hself, hsd] at h
            exact .inr ⟨hcache x hx hux hc, .inr (.inr (.inl ⟨_, hpost _ h, rfl, rfl, _, rfl, ha, hA y hy⟩))⟩
        · exact .inr ⟨hcache x hx hux hc, .inr (.inl ⟨b, n, hkeep y _ e' hp, ha, hsd⟩)⟩
      · right
        refine ⟨hcache x hx hux hc, ?_⟩
        rcases hfl m hm with h | ⟨hz', h⟩
        · exact .inr (.inr (.inl ⟨m, hflight m h, hd, hr, n, hb, ha, hsd⟩))
        · have hxz : x = z := hd.symm.trans hz'
          subst hxz
          unfold routeEvent at h
          rw [hb] at h
          have hne : ¬ m.route = go!"/gossip/new_payload_notification" := by rw [hr]; decide
          simp only [if_neg hne, if_pos hr, Option.some.injEq] at h
          refine .inr (.inr (.inr ⟨(N.conf x).notifLen n, n, ?_, ha, hsd⟩))
          rw [hself]
          have := cstep_request (N.conf x) (s.node x) e.1 ((N.conf x).notifLen n) n hux0
          rw [h] at this
          exact this
      · by_cases e' : x = z
        · subst e'
          rcases request_act (hI.reach x).sound hk ha (hact hux) hc hp with h | ⟨o, ho, hid, hv, h⟩
          · exact .inr ⟨hcache x hx hux hc, .inr (.inr (.inr ⟨b, n, h, ha, hsd⟩))⟩
          · rw [hself, hsd] at h
            refine .inl (.inr (.inr (.inl ⟨o, ⟨hid, hv, .inr ((hI.pay x hx hux0).cache o ho)⟩, _, hpost _ h, rfl, ?_, rfl⟩)))
            simp [objRoutes]
        · exact .inr ⟨hcache x hx hux hc, .inr (.inr (.inr ⟨b, n, hkeep x _ e' hp, ha, hsd⟩))⟩
    · have hxz : x = z := Classical.byContradiction fun e' => hh0 (by rw [hother x e'] at hheld; exact hheld)
      subst hxz
      obtain ⟨o, ho, hp⟩ := new_act (hI.reach x).sound (hI.inv x hx hux0) hft (hact hux) hh0 hheld
      exact .inl (.inr (.inr (.inr ⟨o, ho, _, .inl rfl, hp⟩)))

/-- A revocation update of the key posted from outside names its signer, and its content length is over the optimisation
threshold if the object is. -/
def HonestPost (N : NetConf L) (k : GossipID) : NEvent → Prop
  | .node x (_, .recv n o) => o.getID = k →
      o.signer ≠ [] ∧ (((N.conf x).jsonLen o : Int) > (N.conf x).optThreshold → n > (N.conf x).optThreshold)
  | _ => True

theorem nstep_rev {N : NetConf L} {k : GossipID} {s : Net} (hM : Mesh N) (hA : OwnAddress N) (hk : k.type = .REV_INIT)
    (hI : RevNetInv N k s) (e : NEvent) (he : e.noWipe = true) (hh : HonestPost N k e) : RevNetInv N k (nstep N s e) := by
  have ha := nstep_act N s e
  generalize nstep N s e = s' at ha ⊢
  cases ha with
  | skip => exact hI
  | drop i clk m h1 h2 h3 =>
    have hstay : ∀ m' ∈ s.flight, m' ∈ s.flight.eraseIdx i ∨ m' = m := fun m' hm => mem_eraseIdx_or h1 hm
    refine ⟨hI.reach, hI.inv, hI.pay, fun m' hm' => hI.flight m' (List.mem_of_mem_eraseIdx hm'), ?_⟩
    intro x hx y hy hxy hux huy hheld
    rcases hI.reaches x hx y hy hxy hux huy hheld with (h | h | ⟨o, ho, m', hm, hd, hr, hb⟩ | h) |
      ⟨hc, ⟨m', hm, hd, hr, n, hb, ha, hsd⟩ | h | ⟨m', hm, hd, hr, n, hb, ha, hsd⟩ | h⟩
    · exact .inl (.inl h)
    · exact .inl (.inr (.inl h))
    · refine .inl (.inr (.inr (.inl ⟨o, ho, m', ?_, hd, hr, hb⟩)))
      rcases hstay m' hm with h | h
      · exact h
      · subst h
        unfold routeEvent at h3
        rw [hb] at h3
        simp [hr] at h3
    · exact .inl (.inr (.inr (.inr h)))
    · refine .inr ⟨hc, .inl ⟨m', ?_, hd, hr, n, hb, ha, hsd⟩⟩
      rcases hstay m' hm with h | h
      · exact h
      · subst h
        unfold routeEvent at h3
        rw [hb] at h3
        simp [hr] at h3
    · exact .inr ⟨hc, .inr (.inl h)⟩
    · refine .inr ⟨hc, .inr (.inr (.inl ⟨m', ?_, hd, hr, n, hb, ha, hsd⟩))⟩
      rcases hstay m' hm with h | h
      · exact h
      · subst h
        unfold routeEvent at h3
        rw [hb] at h3
        simp only [hr] at h3
        split at h3 <;> simp at h3
    · exact .inr ⟨hc, .inr (.inr (.inr h))⟩
  | deliver i clk m ev h1 h2 h3 =>
    refine nodeStep_rev hM hA hk hI m.dst h2 (clk, ev) (routeEvent_periodic h3) rfl ?_ (fun m' hm' => List.mem_of_mem_eraseIdx hm') ?_
    · rintro n o rfl hid
      unfold routeEvent at h3
      split at h3
      · rename_i o' hb
        split at h3 <;> simp at h3
        obtain ⟨rfl, rfl⟩ := h3
        exact ⟨hI.flight m (List.mem_of_getElem? h1) o' hb hid, fun h => h⟩
      · split at h3
        · cases h3
        · split at h3 <;> cases h3
    · intro m' hm'
      rcases mem_eraseIdx_or h1 hm' with h | h
      · exact .inl h
      · subst h; exact .inr ⟨rfl, h3⟩
  | node x e hx =>
    obtain ⟨clk, ev⟩ := e
    refine nodeStep_rev hM hA hk hI x hx (clk, ev) ?_ rfl ?_ (fun m hm => hm) (fun m hm => .inl hm)
    · rintro h
      simp only at h; subst h; cases he
    · rintro n o rfl hid; exact hh hid

theorem nrun_rev {N : NetConf L} {k : GossipID} {s : Net} (hM : Mesh N) (hA : OwnAddress N) (hk : k.type = .REV_INIT)
    (hI : RevNetInv N k s) (es : List NEvent) (he : ∀ e ∈ es, e.noWipe = true ∧ HonestPost N k e) : RevNetInv N k (nrun N s es) := by
  induction es generalizing s with
  | nil => exact hI
  | cons e es ih =>
    exact ih (nstep_rev hM hA hk hI e (he e (by simp)).1 (he e (by simp)).2) fun e' h' => he e' (List.mem_cons_of_mem _ h')

/-- The beginning of a round with nothing under way: no gossiper holds a revocation update of the key. -/
structure CleanStart (N : NetConf L) (k : GossipID) (s : Net) : Prop where
  reach : NReach N s
  idle : ∀ x ∈ N.ids, s.up x → ∀ t ∈ (s.node x).threads, t.frames = []
  flight : s.flight = []
  fresh : ∀ x ∈ N.ids, s.up x → (s.node x).g.storage.revInit.has k = false ∧ (s.node x).g.storage.revPayload.has k = false

theorem CleanStart.inv {N : NetConf L} {k : GossipID} {s : Net} (h : CleanStart N k s) (hk : k.type = .REV_INIT) : RevNetInv N k s := by
  have hnot : ∀ x ∈ N.ids, s.up x → ¬ HeldKey (s.node x) k := by
    intro x hx hu hh
    unfold HeldKey at hh; rw [hk] at hh
    change (s.node x).g.storage.revInit.has k = true at hh
    rw [(h.fresh x hx hu).1] at hh; cases hh
  have hfr : ∀ x ∈ N.ids, s.up x → ∀ f, ¬ HasFrame (s.node x) f := by
    rintro x hx hu f ⟨t, ht, hf⟩; rw [h.idle x hx hu t ht] at hf; cases hf
  have hca : ∀ x ∈ N.ids, s.up x → ¬ Cached (s.node x) k := by
    intro x hx hu hc; unfold Cached at hc; rw [(h.fresh x hx hu).2] at hc; cases hc
  refine ⟨h.reach.node, fun x hx hu => ⟨?_, ?_, ?_⟩, fun x hx hu => ⟨?_, ?_, ?_, ?_⟩, ?_, fun x hx y _ _ hux _ hh => absurd hh (hnot x hx hux)⟩
  · intro _ hh; exact absurd hh (hnot x hx hu)
  · intro _ g hf; exact absurd hf (hfr x hx hu _)
  · exact .inr (hfr x hx hu _)
  · intro f o hf; exact absurd hf (hfr x hx hu _)
  · intro o ho; exact absurd ((GoMap.has_iff _ _).2 ⟨o, ho⟩) (hca x hx hu)
  · intro f o hf; exact absurd hf (hfr x hx hu _)
  · intro hc; exact absurd hc (hca x hx hu)
  · intro m hm; rw [h.flight] at hm; cases hm

/-- C90, in part. In a fully connected network of gossipers with the same keys that send under their own addresses, from the
beginning of a round and between wipes, whatever else is posted from outside and in whatever order messages arrive and goroutines
and timers run: once nothing is under way, if a running gossiper holds a revocation update for a period and entity then every
running gossiper holds one for that period and entity or has blacklisted the entity. The update may be of any size: beyond the
threshold it travels by notification, request and answer. Missing: outside posts of such updates must name a signer and have a
content length over the threshold if the object has; the violations show that neither can be dropped. -/
theorem C90_revocations_of_any_size_flood_partial (N : NetConf L) (hM : Mesh N) (hA : OwnAddress N) (s : Net) (k : GossipID)
    (hk : k.type = .REV_INIT) (hs : CleanStart N k s) (es : List NEvent) (hes : ∀ e ∈ es, e.noWipe = true ∧ HonestPost N k e)
    (hq : Quiet N (nrun N s es)) (x y : Str) (hx : x ∈ N.ids) (hy : y ∈ N.ids)
    (hux : (nrun N s es).up x) (huy : (nrun N s es).up y) (hh : ((nrun N s es).node x).g.storage.revInit.has k = true) :
    ((nrun N s es).node y).g.blacklist.has k.entity = true ∨ ((nrun N s es).node y).g.storage.revInit.has k = true := by
  have hI := nrun_rev hM hA hk (hs.inv hk) es hes
  generalize nrun N s es = s' at *
  have hkc : k.type ≠ .CON_INIT := by rw [hk]; simp
  have h1 : HeldKey (s'.node x) k := by unfold HeldKey; rw [hk]; exact hh
  have hset : Settled (s'.node y) k := by
    by_cases e : x = y
    · subst e; exact .inr (.inr ⟨hkc, h1⟩)
    · rcases hI.reaches x hx y hy e hux huy h1 with (h | ⟨o, _, f, _, hp⟩ | ⟨o, _, m, hm, hd, _, _⟩ | ⟨o, _, f, _, hp⟩) |
        ⟨_, ⟨m, hm, hd, _⟩ | ⟨b, n, hp, _⟩ | ⟨m, hm, hd, _⟩ | ⟨b, n, hp, _⟩⟩
      · exact h
      · exact absurd hp (not_pending_of_idle (hq.idle y hy huy) f)
      · exact absurd (hd ▸ hy) (hq.flight m hm)
      · exact absurd hp (not_pending_of_idle (hq.idle x hx hux) f)
      · exact absurd (hd ▸ hy) (hq.flight m hm)
      · exact absurd hp (not_pending_of_idle (hq.idle y hy huy) _)
      · exact absurd (hd ▸ hx) (hq.flight m hm)
      · exact absurd hp (not_pending_of_idle (hq.idle x hx hux) _)
  rcases hset with h | ⟨g, hp, _⟩ | ⟨_, h⟩
  · exact .inl h
  · exact absurd hp (not_pending_of_idle (hq.idle y hy huy) _)
  · refine .inr ?_
    unfold HeldKey at h; rw [hk] at h; exact h

/-! ### Samples -/

namespace Ref

/-- Gossipers G1 and G2, for which every revocation update is large. -/
def bigMesh : NetConf lib where
  ids := [go!"G1", go!"G2"]
  conf := fun x => { mesh.conf x with optThreshold := 50 }

theorem bigMesh_ok : Mesh bigMesh := ⟨mesh_ok.keys, mesh_ok.threshold, mesh_ok.connected⟩

theorem bigMesh_own : OwnAddress bigMesh := fun _ _ => rfl

theorem cleanStart_init {L : Lib} (N : NetConf L) (k : GossipID) : CleanStart N k Net.init :=
  ⟨⟨[], rfl⟩, fun _ _ _ t ht => (by cases ht), rfl, fun _ _ _ => ⟨rfl, rfl⟩⟩

/-- C1 posts a large revocation update to G1. G1 announces it, G2 asks for it and gets it. -/
def bigHist : List NEvent :=
  [.node (go!"G1") (clk, .recv 100 rev)] ++ nruns (go!"G1") 0 14 ++ [.deliver 0 clk] ++ nruns (go!"G2") 0 1 ++
  [.deliver 0 clk] ++ nruns (go!"G1") 1 1 ++ [.deliver 0 clk] ++ nruns (go!"G2") 1 14 ++ [.deliver 0 clk] ++ nruns (go!"G1") 2 1

/-- The same post in chunked encoding, whose content length is reported as -1. -/
def chunkedHist : List NEvent :=
  [.node (go!"G1") (clk, .recv (-1) rev)] ++ nruns (go!"G1") 0 14 ++ [.deliver 0 clk] ++ nruns (go!"G2") 0 1 ++
  [.deliver 0 clk] ++ nruns (go!"G1") 1 1

/-- Somebody posts a copy without the signer's name to G1 before G2 asks. -/
def copyHist : List NEvent :=
  [.node (go!"G1") (clk, .recv 100 rev)] ++ nruns (go!"G1") 0 14 ++ [.node (go!"G1") (clk, .recv 100 { rev with signer := [] })] ++
  nruns (go!"G1") 1 5 ++ [.deliver 0 clk] ++ nruns (go!"G2") 0 1 ++
  [.deliver 0 clk] ++ nruns (go!"G1") 2 1 ++ [.deliver 0 clk] ++ nruns (go!"G2") 1 20

/-- Decidable form of `HonestPost` in `bigMesh`. -/
def honestCheck (k : GossipID) : NEvent → Bool
  | .node _ (_, .recv n o) => o.getID != k || (!o.signer.isEmpty && decide (n > 50))
  | _ => true

theorem honest_of_check {k : GossipID} {e : NEvent} (h : honestCheck k e = true) : HonestPost bigMesh k e := by
  unfold HonestPost
  split
  · rename_i x clk n o
    intro hid
    simp [honestCheck, hid] at h
    exact ⟨h.1, fun _ => h.2⟩
  · trivial

/-- G2 holds the large revocation update that was posted to G1. -/
example : ((nrun bigMesh Net.init bigHist).node (go!"G2")).g.storage.revInit.has rev.getID = true := by
  have hq : Quiet bigMesh (nrun bigMesh Net.init bigHist) := quiet_of_check (by decide +kernel)
  have hb : ((nrun bigMesh Net.init bigHist).node (go!"G2")).g.blacklist.has rev.getID.entity = false := by decide +kernel
  have hes : ∀ e ∈ bigHist, e.noWipe = true ∧ HonestPost bigMesh rev.getID e := by
    have h : bigHist.all (fun e => e.noWipe && honestCheck rev.getID e) = true := by decide +kernel
    intro e he
    have := List.all_eq_true.1 h e he
    rw [Bool.and_eq_true] at this
    exact ⟨this.1, honest_of_check this.2⟩
  rcases C90_revocations_of_any_size_flood_partial bigMesh bigMesh_ok bigMesh_own Net.init rev.getID rfl (cleanStart_init _ _) bigHist hes hq
    (go!"G1") (go!"G2") (by decide) (by decide) (by show _ = _; decide +kernel) (by show _ = _; decide +kernel) (by decide +kernel) with h | h
  · rw [hb] at h; cases h
  · exact h

end Ref

/-- C90 is violated when a client posts a large revocation update without announcing its length (chunked encoding): in a fully
connected network the gossiper stores and announces it but cannot hand it out, so when nothing is under way any more the other
gossiper neither holds it nor has blacklisted the entity. The object is signed and verifies; nothing else is posted. -/
theorem C90_violated_chunked : ∃ (N : NetConf Ref.lib) (es : List NEvent) (k : GossipID) (x y : Str),
    Mesh N ∧ OwnAddress N ∧ k.type = .REV_INIT ∧ x ∈ N.ids ∧ y ∈ N.ids ∧ (∀ e ∈ es, e.noWipe = true) ∧
    (∀ z clk n o, .node z (clk, .recv n o) ∈ es → o.getID = k ∧ o.verify (N.conf x).crypto = .ok ∧ o.signer = k.entity) ∧
    Quiet N (nrun N Net.init es) ∧ (nrun N Net.init es).up x ∧ (nrun N Net.init es).up y ∧
    ((nrun N Net.init es).node x).g.storage.revInit.has k = true ∧
    ((nrun N Net.init es).node y).g.storage.revInit.has k = false ∧
    ((nrun N Net.init es).node y).g.blacklist.has k.entity = false := by
  refine ⟨Ref.bigMesh, Ref.chunkedHist, Ref.rev.getID, go!"G1", go!"G2", Ref.bigMesh_ok, Ref.bigMesh_own, rfl, by decide, by decide,
    by decide +kernel, ?_, quiet_of_check (by decide +kernel), by show _ = _; decide +kernel, by show _ = _; decide +kernel,
    by decide +kernel, by decide +kernel, by decide +kernel⟩
  intro z clk n o h
  have ho : o = Ref.rev := by
    simp [Ref.chunkedHist, Ref.nruns] at h
    exact h.2.2.2
  subst ho
  exact ⟨rfl, by decide +kernel, by decide +kernel⟩

/-- C90 is violated by anybody who repeats a large revocation update without the name of its signer, which the signature does not
cover: the gossiper hands out the copy, and the receiver takes it for a conflict with the empty object and drops it. All lengths
are announced correctly. -/
theorem C90_violated_unnamed_copy : ∃ (N : NetConf Ref.lib) (es : List NEvent) (k : GossipID) (x y : Str),
    Mesh N ∧ OwnAddress N ∧ k.type = .REV_INIT ∧ x ∈ N.ids ∧ y ∈ N.ids ∧ (∀ e ∈ es, e.noWipe = true) ∧
    (∀ z clk n o, .node z (clk, .recv n o) ∈ es → o.getID = k ∧ n = ((N.conf z).jsonLen o : Int) ∧ { o with signer := Ref.rev.signer } = Ref.rev) ∧
    Quiet N (nrun N Net.init es) ∧ (nrun N Net.init es).up x ∧ (nrun N Net.init es).up y ∧
    ((nrun N Net.init es).node x).g.storage.revInit.has k = true ∧
    ((nrun N Net.init es).node y).g.storage.revInit.has k = false ∧
    ((nrun N Net.init es).node y).g.blacklist.has k.entity = false := by
  refine ⟨Ref.bigMesh, Ref.copyHist, Ref.rev.getID, go!"G1", go!"G2", Ref.bigMesh_ok, Ref.bigMesh_own, rfl, by decide, by decide,
    by decide +kernel, ?_, quiet_of_check (by decide +kernel), by show _ = _; decide +kernel, by show _ = _; decide +kernel,
    by decide +kernel, by decide +kernel, by decide +kernel⟩
  intro z clk n o h
  have ho : n = 100 ∧ (o = Ref.rev ∨ o = { Ref.rev with signer := [] }) := by
    simp [Ref.copyHist, Ref.nruns] at h
    rcases h with h | h
    · exact ⟨h.2.2.1, .inl h.2.2.2⟩
    · exact ⟨h.2.2.1, .inr h.2.2.2⟩
  obtain ⟨rfl, rfl | rfl⟩ := ho <;> exact ⟨rfl, rfl, rfl⟩

end CTng
