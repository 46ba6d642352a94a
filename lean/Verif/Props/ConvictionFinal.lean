import Verif.Props.Quarantine
import Verif.Props.Network
/- C164: what a conviction means for the rest of the network's life. -/
set_option autoImplicit false

namespace CTng
variable {L : Lib}

/-- A gossiper of the network runs the gossiper program on. -/
theorem nrun_as_crun (N : NetConf L) (s : Net) (es : List NEvent) (y : Str) : ∃ h, (nrun N s es).node y = crun (N.conf y) (s.node y) h := by
  have step : ∀ (s : Net) (x : Str) (e : Clock × CEvent), x ∈ N.ids →
      ∃ h, (nodeStep N s x e).node y = crun (N.conf y) (s.node y) h := by
    intro s x e hx
    rw [nodeStep_node N s x e hx y]
    split
    · rename_i h; subst h; exact ⟨[e], rfl⟩
    · exact ⟨[], rfl⟩
  induction es generalizing s with
  | nil => exact ⟨[], rfl⟩
  | cons e r ih =>
    obtain ⟨h2, e2⟩ := ih (nstep N s e)
    have : ∃ h, (nstep N s e).node y = crun (N.conf y) (s.node y) h := by
      have ha := nstep_act N s e
      generalize nstep N s e = s' at ha
      cases ha with
      | skip => exact ⟨[], rfl⟩
      | drop i clk m _ _ _ => exact ⟨[], rfl⟩
      | deliver i clk m ev _ hd _ => exact step _ _ _ hd
      | node x e hx => exact step _ _ _ hx
    obtain ⟨h1, e1⟩ := this
    exact ⟨h1 ++ h2, by rw [show nrun N s (e :: r) = nrun N (nstep N s e) r from rfl, e2, e1, crun_append]⟩

theorem crun_dead (cf : GConf L) (c : CState) (h : List (Clock × CEvent)) (hd : c.g.crashed = true) : crun cf c h = c := by
  induction h generalizing c with
  | nil => rfl
  | cons e r ih =>
    have : cstep cf c e = c := by unfold cstep; rw [if_pos hd]
    rw [show crun cf c (e :: r) = crun cf (cstep cf c e) r from rfl, this, ih c hd]

/-- C164. In a fully connected network of gossipers with the same keys, once a running gossiper holds a conflict proof and nothing is
under way, the convicted entity is dead for good: whatever is posted to whom afterwards, in whatever order messages arrive and
goroutines, timers and ends of periods run, no gossiper ever again signs a statement that names the entity, sends one to its owner, to
another gossiper (other than a saved payload it was asked for), or stores one. -/
theorem C164_conviction_is_final (N : NetConf L) (hM : Mesh N) (s : Net) (hs : NReach N s) (hq : Quiet N s) (x : Str) (hx : x ∈ N.ids)
    (hux : s.up x) (k : GossipID) (p : GossipObj) (hp : (s.node x).g.storage.conInit.get k = some p) (es : List NEvent) (y : Str)
    (hy : y ∈ N.ids) (o : GossipObj) (ho : o.payload.p0 = p.payload.p0) :
    (.signed o ∈ ((nrun N s es).node y).g.out → .signed o ∈ (s.node y).g.out) ∧
    (.owner o ∈ ((nrun N s es).node y).g.out → .owner o ∈ (s.node y).g.out) ∧
    (∀ u r, r ≠ go!"/gossip/rev_init" → .peer u r (.obj o) ∈ ((nrun N s es).node y).g.out → .peer u r (.obj o) ∈ (s.node y).g.out) ∧
    (∀ k t, HeldAs ((nrun N s es).node y).g.storage k o t → HeldAs (s.node y).g.storage k o t) ∧
    (∀ k l t, FragsAt ((nrun N s es).node y).g.storage k l t → o ∈ l → ∃ l', FragsAt (s.node y).g.storage k l' t ∧ o ∈ l') := by
  obtain ⟨h, e⟩ := nrun_as_crun N s es y
  rw [e]
  by_cases hu : s.up y
  · have hb := C37_conflict_proofs_reach_everyone N hM s hs hq x y hx hy hux hu k p hp
    have q := C163_quarantine_under_every_schedule (N.conf y) (s.node y) (hs.node y) _ hb (by
      intro th hth f hf
      rw [hq.idle y hy hu th hth] at hf; cases hf) h
    refine ⟨q.signed o ho, q.owner o ho, ?_, fun k t h => q.held k o t ho h, fun k l t h hm => q.frags k l t h o hm ho⟩
    intro u r hr hm
    rcases q.peers u r o ho hm with h | ⟨h, _⟩
    · exact h
    · exact absurd h hr
  · have hd : (s.node y).g.crashed = true := by simpa [Net.up] using hu
    rw [crun_dead _ _ _ hd]
    exact ⟨id, id, fun _ _ _ h => h, fun _ _ h => h, fun k l t h hm => ⟨l, h, hm⟩⟩

/-- C164: L1 posts two tree heads to G1; when the conflict proof has reached G2 and come back, the signing timers of both are still
armed, and neither gossiper ever signs for L1. -/
example (es : List NEvent) (y : Str) (hy : y ∈ Ref.mesh.ids) (o : GossipObj) (ho : o.payload.p0 = go!"L1") :
    ((nrun Ref.mesh Net.init Ref.equivHist).node y).g.timers = [Ref.sth] ∧
    .signed o ∉ ((nrun Ref.mesh (nrun Ref.mesh Net.init Ref.equivHist) es).node y).g.out := by
  have hnone : ∀ y ∈ Ref.mesh.ids, ((nrun Ref.mesh Net.init Ref.equivHist).node y).g.timers = [Ref.sth] ∧
      ((nrun Ref.mesh Net.init Ref.equivHist).node y).g.out.all (fun e => match e with | .signed _ => false | _ => true) = true := by
    decide +kernel
  refine ⟨(hnone y hy).1, fun hm => ?_⟩
  have hcon : ((nrun Ref.mesh Net.init Ref.equivHist).node (go!"G1")).g.storage.conInit.get ⟨Ref.clk.period, .CON_INIT, go!"L1"⟩ =
      some (generateCON Ref.clk Ref.sth Ref.sth') := by decide +kernel
  have := (C164_conviction_is_final Ref.mesh Ref.mesh_ok _ ⟨_, rfl⟩ (quiet_of_check (by decide +kernel)) (go!"G1") (by decide)
    (show (_ : Bool) = false by decide +kernel) _ _ hcon es y hy o (ho.trans (by decide +kernel))).1 hm
  have := List.all_eq_true.1 (hnone y hy).2 _ this
  simp at this

end CTng
