import Verif.Props.NetworkThreshold
import Verif.Props.RoundLog
import Verif.Props.NetworkPayload
/- C91: revocation updates in a network with the default settings of the optimisation. -/
set_option autoImplicit false

namespace CTng
namespace Ref

/-- Three gossipers with the default settings (gossiper/Init.go:75-76) and threshold 2. -/
def omesh : NetConf lib where
  ids := [go!"G1", go!"G2", go!"G3"]
  conf := fun x => { defaultConf with crypto := conf x, connected := [go!"G1", go!"G2", go!"G3"].filter (· ≠ x) }

/-- C1 posts its revocation update to G1. G2 hears of it, asks for it and gets it. G1 and G2 sign, and their fragments, without the
payload, reach G3 before the notifications do. Then all that is left is delivered, and G3 signs. -/
def overtakenHist : List SEvent :=
  [.node (go!"G1") (clk, .recv 2000 rev), .deliver 0 clk, .deliver 1 clk, .deliver 1 clk, .deliver 1 clk,
   .node (go!"G1") (clk, .fire 0), .node (go!"G2") (clk, .fire 0), .deliver 3 clk, .deliver 4 clk] ++
  List.replicate 40 (.deliver 0 clk) ++ [.node (go!"G3") (clk, .fire 0)] ++ List.replicate 20 (.deliver 0 clk)

end Ref

/-- C91 fails with the default settings of the optimisation: in a fully connected network of three gossipers with threshold 2 that
execute one request or timer at a time, in which one revocation update was posted once and nothing else came from outside, all
three hold the update and have signed it, nothing is under way, no timer is left and nobody is blacklisted; yet G3 holds no FULL
object. The fragments of the others came before the update, and it has filed them under no entity, where they stay. -/
theorem C91_violated_by_default_optimisation :
    let s := srun Ref.omesh SNet.init Ref.overtakenHist
    (∀ e ∈ Ref.overtakenHist, ∀ x clk n o, e = .node x (clk, .recv n o) → x = go!"G1" ∧ o = Ref.rev) ∧
    (∀ e ∈ Ref.overtakenHist, e.noWipe = true) ∧ s.flight = [] ∧
    (∀ x ∈ Ref.omesh.ids, (Ref.omesh.conf x).crypto.threshold = 2 ∧ s.up x ∧ (s.node x).timers = [] ∧
      (s.node x).blacklist.has (go!"C1") = false ∧ HeldAs (s.node x).storage Ref.rev.getID Ref.rev .REV_INIT ∧
      ∃ f, .signed f ∈ (s.node x).out ∧ f.payload = Ref.rev.payload) ∧
    (∀ k o, ¬ HeldAs (s.node (go!"G3")).storage k o .REV_FULL) ∧
    ∃ k l, FragsAt (s.node (go!"G3")).storage k l .REV_FRAG ∧ k.entity = [] ∧ l.length = 2 := by
  intro s
  have hs : srun Ref.omesh SNet.init Ref.overtakenHist = s := rfl
  clear_value s
  refine ⟨?_, ?_, ?_, ?_, ?_, ?_⟩
  · intro e he x clk n o h
    subst h
    simp only [Ref.overtakenHist, List.mem_append, List.mem_cons, List.not_mem_nil, or_false, SEvent.node.injEq, Prod.mk.injEq,
      GOp.recv.injEq, reduceCtorEq, and_false, or_self, List.mem_replicate] at he
    exact ⟨by simp [he], by simp [he]⟩
  · decide +kernel
  · rw [← hs]
    decide +kernel
  · have h : (Ref.omesh.ids.all fun x => decide ((Ref.omesh.conf x).crypto.threshold = 2 ∧
        ((srun Ref.omesh SNet.init Ref.overtakenHist).node x).crashed = false ∧
        ((srun Ref.omesh SNet.init Ref.overtakenHist).node x).timers = [] ∧
        ((srun Ref.omesh SNet.init Ref.overtakenHist).node x).blacklist.has (go!"C1") = false ∧
        ((srun Ref.omesh SNet.init Ref.overtakenHist).node x).storage.revInit.get Ref.rev.getID = some Ref.rev ∧
        (((srun Ref.omesh SNet.init Ref.overtakenHist).node x).out.any fun f => match f with
          | .signed f => decide (f.payload = Ref.rev.payload)
          | _ => false) = true)) = true := by decide +kernel
    rw [hs] at h
    intro x hx
    obtain ⟨h0, h1, h2, h3, h4, h5⟩ := of_decide_eq_true (List.all_eq_true.1 h x hx)
    obtain ⟨f, hf, h5⟩ := List.any_eq_true.1 h5
    cases f with
    | signed f => exact ⟨h0, h1, h2, h3, .revInit h4, f, hf, of_decide_eq_true h5⟩
    | _ => cases h5
  · have h : ((srun Ref.omesh SNet.init Ref.overtakenHist).node (go!"G3")).storage.revFull.entries.isEmpty = true := by decide +kernel
    rw [hs] at h
    intro k o ho
    rw [List.isEmpty_iff] at h
    cases ho with
    | revFull ho => unfold GoMap.get at ho; rw [h] at ho; cases ho
  · have h : (((srun Ref.omesh SNet.init Ref.overtakenHist).node (go!"G3")).storage.revFrag.entries.any fun e =>
        decide (((srun Ref.omesh SNet.init Ref.overtakenHist).node (go!"G3")).storage.revFrag.get e.1 = some e.2 ∧ e.1.entity = [] ∧
          e.2.length = 2)) = true := by decide +kernel
    rw [hs] at h
    obtain ⟨e, _, h⟩ := List.any_eq_true.1 h
    obtain ⟨h1, h2, h3⟩ := of_decide_eq_true h
    exact ⟨e.1, e.2, .rev h1, h2, h3⟩

/-! ### What holds -/

variable {L : Lib}

/-- Posts of the statement from outside name a signer and announce a length over the threshold if the object has one. -/
def HonestPosts (N : NetConf L) (k : GossipID) (es : List SEvent) : Prop :=
  ∀ x clk n o, .node x (clk, .recv n o) ∈ es → o.getID = k →
    o.signer ≠ [] ∧ (((N.conf x).jsonLen o : Int) > (N.conf x).optThreshold → n > (N.conf x).optThreshold)

/-- Revocation updates of any size reach all running gossipers of a serial network. -/
theorem serial_flood_any {N : NetConf L} {pub : L.BlsSec → L.BlsPub} {R : Round} (hM : Mesh N) (hA : OwnAddress N) (hk : R.kind = .rev)
    {s : SNet} (hs : SRoundStart N pub R s) (hf : s.flight = []) (es : List SEvent) (hw : ∀ e ∈ es, e.noWipe = true)
    (hp : HonestPosts N R.key0 es)
    (hq : ∀ m ∈ (srun N s es).flight, m.dst ∉ N.ids) (x y : Str) (hx : x ∈ N.ids) (hy : y ∈ N.ids) (hux : (srun N s es).up x)
    (huy : (srun N s es).up y) (hb : ((srun N s es).node y).blacklist.has R.pay.p0 = false)
    (hh : ((srun N s es).node x).storage.revInit.has R.key0 = true) :
    ((srun N s es).node y).storage.revInit.has R.key0 = true := by
  obtain ⟨c, hc, hsame⟩ := hs.reach.toNet
  obtain ⟨es', h1, h2, h3⟩ := srun_same (N := N) hsame es
  have hst : CleanStart N R.key0 c := by
    refine ⟨hc, fun z _ _ => hsame.idle z, by rw [hsame.flight]; exact hf, fun z hz _ => ?_⟩
    rw [hsame.node]
    constructor
    · cases h : (s.node z).storage.revInit.has R.key0 with
      | false => rfl
      | true =>
        obtain ⟨o, ho⟩ := (GoMap.has_iff _ _).1 h
        have := ((hs.reach.greach z).storageInv.objs .REV_INIT _ o ho).1
        exact absurd (congrArg GossipID.entity this) (hs.objs z hz _ o _ (.revInit ho))
    · cases h : (s.node z).storage.revPayload.has R.key0 with
      | false => rfl
      | true =>
        obtain ⟨o, ho⟩ := (GoMap.has_iff _ _).1 h
        have := ((hs.reach.greach z).storageInv.payload _ o ho).1
        exact absurd (congrArg GossipID.entity this) (hs.payloads z hz _ o ho)
  have hes : ∀ e ∈ es', e.noWipe = true ∧ HonestPost N R.key0 e := by
    intro e he
    refine ⟨h2 hw e he, ?_⟩
    unfold HonestPost
    split
    · rename_i z clk n o
      exact hp z clk n o (h3 z clk n o he)
    · trivial
  rcases C90_revocations_of_any_size_flood_partial N hM hA c R.key0 (by simp [Round.key0, hk, Kind.init]) hst es' hes (h1.quiet hq)
    x y hx hy ((h1.up x).2 hux) ((h1.up y).2 huy) (by rw [h1.node]; exact hh) with h | h
  · rw [h1.node] at h
    have h' : ((srun N s es).node y).blacklist.has R.pay.p0 = true := h
    rw [hb] at h'; cases h'
  · rw [h1.node] at h; exact h

/-- C91, what holds of revocation updates with the optimisation: in a fully connected network whose gossipers have the same keys and
threshold T, send under their own addresses, have the optimisation switched on with any threshold on the length, and execute one
request or timer at a time, take a round in which nothing stands against the update, between two wipes, and in which every fragment
about its CA that a running gossiper receives finds the update saved there (`NetInOrder`). If at the end nothing is under way, the timers
have run, nobody running has blacklisted the CA, at least T gossipers are running and one of them holds the update, then every running
gossiper holds a FULL object with its payload, which verifies and was sent to the gossiper's owner. Missing: fragments that overtake
the update (`C91_violated_by_default_optimisation`); concurrent requests (`C91_violated_by_concurrent_duplicates`). -/
theorem C91_optimised_in_order_partial {N : NetConf L} {pub : L.BlsSec → L.BlsPub} {R : Round} (hN : NetBase N pub R true)
    (hA : OwnAddress N) (hk : R.kind = .rev) (T : Int) (hT : ∀ x ∈ N.ids, (N.conf x).crypto.threshold = T)
    (s : SNet) (hs : SRoundStart N pub R s) (hf : s.flight = []) (es : List SEvent) (hw : ∀ e ∈ es, e.noWipe = true)
    (he : ∀ e ∈ es, e.ok N pub R) (hp : HonestPosts N R.key0 es) (hord : NetInOrder N R s es)
    (hend : SRoundEnd N R (srun N s es))
    (hb : ∀ x ∈ N.ids, (srun N s es).up x → ((srun N s es).node x).blacklist.has R.pay.p0 = false)
    (xs : List Str) (hn : xs.Nodup) (hxs : ∀ x ∈ xs, x ∈ N.ids ∧ (srun N s es).up x) (hlen : T ≤ (xs.length : Int))
    (z : Str) (hz : z ∈ N.ids) (huz : (srun N s es).up z) (o : GossipObj)
    (ho : HeldAs ((srun N s es).node z).storage ⟨R.period, .REV_INIT, R.pay.p0⟩ o .REV_INIT)
    (y : Str) (hy : y ∈ N.ids) (huy : (srun N s es).up y) : Certified (N.conf y) R ((srun N s es).node y) := by
  have hI := srun_inv_mode hN (hs.inv hN.mesh true) es hw he (fun _ _ => hord)
  have hid : ∀ x ∈ N.ids, ∀ y ∈ N.ids, (N.conf x).crypto.selfID = (N.conf y).crypto.selfID → x = y := by
    intro a ha b hb' e; rw [hA a ha, hA b hb'] at e; exact e
  have hhz : ((srun N s es).node z).storage.revInit.has R.key0 = true := by
    refine (GoMap.has_iff _ _).2 ⟨o, ?_⟩
    simp only [Round.key0, hk, Kind.init]
    exact heldAs_iff.1 ho
  have hown : ∀ x ∈ xs, ∃ σ, OwnSig (N.conf x).crypto R σ ∧ Kept (N.conf x) R.kind.frag R.key σ ((srun N s es).node x) := by
    intro x hx
    obtain ⟨hx1, hx2⟩ := hxs x hx
    have hh := serial_flood_any hN.mesh hA hk hs hf es hw hp hend.flight z x hz hx1 huz hx2 (hb x hx1 hx2) hhz
    have hh' : (((srun N s es).node x).storage.objs R.kind.init).has R.key0 = true := by rw [hk]; exact hh
    rcases hI.own x hx1 hh' with ⟨g, hg, e⟩ | ⟨σ, h1, h2, _⟩
    · exact absurd (congrArg GossipID.entity e) (hend.timers x hx1 hx2 g hg)
    · refine ⟨σ, h1, ?_⟩
      rcases h2 with h | h
      · rw [hb x hx1 hx2] at h; cases h
      · exact h
  rcases round_full hN hI hend.flight T hT hid xs hn (fun x hx => (hxs x hx).1) hlen hown y hy huy with h | h
  · rw [hb y hy huy] at h; cases h
  · exact certified_of_full hI hy h

namespace Ref

def updRound : Round := ⟨.rev, go!"5", rev.payload⟩

/-- C1 posts its revocation update to G1, all hear of it, ask for it and get it. Then all three sign. -/
def inOrderHist : List SEvent :=
  [.node (go!"G1") (clk, .recv 2000 rev)] ++ List.replicate 20 (.deliver 0 clk) ++
  [.node (go!"G1") (clk, .fire 0), .node (go!"G2") (clk, .fire 0), .node (go!"G3") (clk, .fire 0)] ++ List.replicate 20 (.deliver 0 clk)

/-- `NetInOrder`, computed. -/
def stepCheck (s : SNet) : SEvent → Bool
  | .node _ _ => true
  | .deliver i _ => match s.flight[i]? with
    | none => true
    | some m => match m.body with
      | .obj q => !(decide (q.type = .REV_FRAG)) || (s.node m.dst).storage.revPayload.has ⟨q.period, .REV_INIT, q.payload.p0⟩
      | _ => true

def orderCheck (N : NetConf lib) (s : SNet) : List SEvent → Bool
  | [] => true
  | e :: es => stepCheck s e && orderCheck N (sstep N s e) es

theorem inOrder_of_check {N : NetConf lib} {R : Round} (es : List SEvent) (s : SNet) (h : orderCheck N s es = true) :
    NetInOrder N R s es := by
  induction es generalizing s with
  | nil => intro a e b he; cases a <;> cases he
  | cons e es ih =>
    rw [orderCheck, Bool.and_eq_true] at h
    intro a e' b he
    cases a with
    | nil =>
      simp only [List.nil_append, List.cons.injEq] at he
      obtain ⟨rfl, rfl⟩ := he
      show SEvent.inOrder N R s e
      cases e with
      | node _ _ => trivial
      | deliver i clk =>
        intro m q hm _ _ hb ht _
        have := h.1
        simp only [stepCheck, hm, hb, ht] at this
        simpa using this
    | cons a0 a =>
      simp only [List.cons_append, List.cons.injEq] at he
      obtain ⟨rfl, he⟩ := he
      exact ih (sstep N s e) h.2 a e' b he

theorem omesh_net : NetBase omesh blsPub updRound true where
  mesh := by
    refine ⟨fun x _ y _ => ⟨rfl, rfl, fun _ => rfl, fun _ => rfl⟩, fun x _ => (by decide : (0 : Int) < 2), ?_⟩
    intro x _ y hy hne
    simp only [omesh, List.mem_filter] at hy ⊢
    exact ⟨hy, by simpa using fun h => hne h.symm⟩
  json := jsonLaws
  bls := blsLaws
  keyed := by
    intro x hx
    simp only [omesh, List.mem_cons, List.not_mem_nil, or_false] at hx
    refine ⟨rfl, ?_, ?_⟩
    · rcases hx with rfl | rfl | rfl <;> rfl
    · rcases hx with rfl | rfl | rfl <;> (unfold Safe; decide)
  mode := fun _ _ _ => ⟨rfl, fun h => nomatch h⟩
  entity := by decide

theorem omesh_start (R : Round) : SRoundStart omesh blsPub R SNet.init where
  reach := ⟨[], rfl⟩
  objs := by intro x _ k o t h; exact absurd (heldAs_iff.1 h) (by simp [SNet.init, GState.init])
  frags := by intro x _ k l t h; cases h with | sth h => cases h | rev h => cases h | acc h => cases h
  payloads := by intro x _ k o h; cases h
  timers := by intro x _ g h; cases h
  flight := by intro m h; cases h

/-- All three gossipers hold the update with two signatures. -/
example : ∀ y ∈ omesh.ids, Certified (omesh.conf y) updRound ((srun omesh SNet.init inOrderHist).node y) := by
  have hfl : (srun omesh SNet.init inOrderHist).flight.isEmpty = true := by decide +kernel
  have hc : (omesh.ids.all fun x => decide (((srun omesh SNet.init inOrderHist).node x).timers = [] ∧
      ((srun omesh SNet.init inOrderHist).node x).crashed = false ∧
      ((srun omesh SNet.init inOrderHist).node x).blacklist.has (go!"C1") = false)) = true := by decide +kernel
  have hh : ((srun omesh SNet.init inOrderHist).node (go!"G1")).storage.revInit.get rev.getID = some rev := by decide +kernel
  have hord := inOrder_of_check (N := omesh) (R := updRound) inOrderHist SNet.init (by decide +kernel)
  have hposts : ∀ x clk n o, SEvent.node x (clk, .recv n o) ∈ inOrderHist → n = 2000 ∧ o = rev := by
    intro x clk n o h
    simp only [inOrderHist, List.mem_append, List.mem_cons, List.not_mem_nil, or_false, SEvent.node.injEq, Prod.mk.injEq,
      GOp.recv.injEq, reduceCtorEq, and_false, or_self, List.mem_replicate] at h
    exact ⟨by simp [h], by simp [h]⟩
  have hc' := fun x hx => of_decide_eq_true (List.all_eq_true.1 hc x hx)
  intro y hy
  refine C91_optimised_in_order_partial omesh_net (fun _ _ => rfl) rfl 2 (fun _ _ => rfl) SNet.init (omesh_start _) rfl inOrderHist
    (by decide) ?_ ?_ hord ⟨?_, ?_⟩ ?_ omesh.ids (by decide) (fun x hx => ⟨hx, (hc' x hx).2.1⟩) (by decide)
    (go!"G1") (by decide) (hc' _ (by decide)).2.1 rev (.revInit hh) y hy (hc' y hy).2.1
  · intro e he
    cases e with
    | deliver _ _ => trivial
    | node x e =>
      obtain ⟨clk, op⟩ := e
      intro n d h
      simp only at h
      subst h
      obtain ⟨_, rfl⟩ := hposts x clk n d he
      exact ⟨fun _ _ _ => ⟨rfl, rfl⟩, (fun h => nomatch h), (fun h => nomatch h)⟩
  · intro x clk n o h _
    obtain ⟨rfl, rfl⟩ := hposts x clk n o h
    exact ⟨by decide, fun _ => (by decide : (2000 : Int) > 10)⟩
  · rw [List.isEmpty_iff.1 hfl]; intro m hm; cases hm
  · intro x hx _ g hg; rw [(hc' x hx).1] at hg; cases hg
  · intro x hx _; exact (hc' x hx).2.2

end Ref

end CTng
