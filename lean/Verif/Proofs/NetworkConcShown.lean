import Verif.Props.NetworkConc
import Verif.Props.NetworkSplit
/- An accusation posted to a gossiper with goroutines is held once nothing is under way, or its entity is blacklisted. -/
set_option autoImplicit false

namespace CTng
variable {L : Lib}

/-- Program points that lead to the accusation being held. -/
def AccF (o : GossipObj) (f : Frame) : Prop :=
  (∃ n, f = .recv n o) ∨ f = .recon o ∨ f = .handle o ∨ f = .blk o ∨ f = .initFull o ∨ f = .initFrag o ∨ f = .store o

def AccShown (cf : GConf L) (R : Round) (o : GossipObj) (c : CState) : Prop :=
  c.g.blacklist.has R.pay.p0 = true ∨ (c.g.storage.objs .ACC_INIT).has o.getID = true ∨ ∃ f, AccF o f ∧ Under cf R c f

section
variable {cf : GConf L} {pub : L.BlsSec → L.BlsPub} {R : Round} {c c' : CState} {e : Clock × CEvent}

theorem acc_counts_zero (hI : StorageInv cf c.g.storage) {o : GossipObj} (ht : o.type = .ACC_INIT) :
    itemCount c.g o.getID .ACC_FULL = 0 ∧ itemCount c.g o.getID .ACC_FRAG = 0 := by
  constructor
  · unfold itemCount
    simp only
    split
    · rename_i h
      obtain ⟨v, hv⟩ := (GoMap.has_iff _ _).1 h
      obtain ⟨h3, h4, _⟩ := hI.objs _ _ _ hv
      have h5 : v.type = o.type := congrArg GossipID.type h3
      rw [h4, ht] at h5; cases h5
    · rfl
  · unfold itemCount
    cases hl : c.g.storage.fragList .ACC_FRAG o.getID with
    | nil => simp
    | cons f r =>
      have hf : f ∈ c.g.storage.fragList .ACC_FRAG o.getID := by rw [hl]; simp
      obtain ⟨h3, h4⟩ := hI.frags _ _ f hf
      have h5 : f.type = o.type := congrArg GossipID.type h3
      rw [ht] at h5
      rw [h5] at h4
      simp at h4

theorem AccShown.step (h : Step cf pub R c e c') {o : GossipObj} (ht : o.type = .ACC_INIT) (hp : o.payload.p0 = R.pay.p0)
    (hv : o.verify cf.crypto = .ok) (hd : AccShown cf R o c) : AccShown cf R o c' := by
  have hheld : (c.g.storage.objs .ACC_INIT).has o.getID = true → AccShown cf R o c' := by
    intro hh
    have := h.mono.held o.getID
    have ht' : o.getID.type = .ACC_INIT := ht
    rw [ht'] at this
    exact .inr (.inl (this hh))
  have hobj : o.type.isObj = true := by rw [ht]; rfl
  rcases hd with hd | hd | ⟨f, hf, hu⟩
  · exact .inl (h.mono.black _ hd)
  · exact hheld hd
  · rcases h.under hu with hu' | hx
    · exact .inr (.inr ⟨f, hf, hu'⟩)
    · have go : ∀ f', AccF o f' → (stepFrame cf e.1 c.g f).2 = some [f'] → AccShown cf R o c' :=
        fun f' h1 h2 => .inr (.inr ⟨f', h1, hx.next h2⟩)
      have hdup : dupCheck c.g o = true → AccShown cf R o c' := by
        intro hd
        have := dupCheck_held hobj hd
        rw [ht] at this
        exact hheld this
      obtain ⟨z1, z2⟩ := acc_counts_zero (c := c) h.s.storage ht
      have hT := h.env.threshold
      rcases hf with ⟨n, rfl⟩ | rfl | rfl | rfl | rfl | rfl | rfl
      · refine go (.recon o) (by simp [AccF]) ?_
        have : ¬ (n > cf.optThreshold ∧ o.type = .REV_INIT) := by
          rintro ⟨_, h2⟩; rw [ht] at h2; cases h2
        simp only [stepFrame, if_neg this]
      · refine go (.handle o) (by simp [AccF]) ?_
        have : ¬ (cf.optMode = true ∧ o.type = .REV_FRAG) := by
          rintro ⟨_, h2⟩; rw [ht] at h2; cases h2
        simp only [stepFrame, if_neg this]
      · cases hdc : dupCheck c.g o with
        | true => exact hdup hdc
        | false => exact go (.blk o) (by simp [AccF]) (by simp [stepFrame, hdc])
      · cases hb : inBlacklist c.g o.payload.p0 with
        | true => rw [hp] at hb; exact .inl (h.mono.black _ hb)
        | false => exact go (.initFull o) (by simp [AccF]) (by simp [stepFrame, hb, ht])
      · exact go (.initFrag o) (by simp [AccF]) (by simp [stepFrame, ht, fullOfInit, z1])
      · refine go (.store o) (by simp [AccF]) ?_
        have : ¬ ((0 : Nat) : Int) ≥ cf.crypto.threshold := by simp; omega
        simp only [stepFrame, ht, fragOfInit, z2, if_neg this]
      · rcases hlk : storeLocked { c.g with timerlist := c.g.timerlist ++ [e.1.second] } o with ⟨s1, b⟩
        rcases storage_storeLocked hobj hlk with ⟨rfl, _, hdp⟩ | ⟨rfl, h1, _⟩
        · exact hdup ((dupCheck_congr rfl o).trans hdp)
        · refine .inr (.inl ?_)
          have hst : stepFrame cf e.1 c.g (.store o) = (s1, some [.storeBl o]) := by simp only [stepFrame, hv, hlk]
          rw [hx.1, hst, h1]
          simp only
          rw [← ht, Storage.objs_putObj_same _ _ _ _ hobj]
          simp
end

theorem nodeStep_node_or (N : NetConf L) (s : Net) (y : Str) (ev : Clock × CEvent) (x : Str) :
    (nodeStep N s y ev).node x = s.node x ∨ ∃ ev', (nodeStep N s y ev).node x = cstep (N.conf x) (s.node x) ev' := by
  unfold nodeStep
  split
  · by_cases h : x = y
    · subst h; exact .inr ⟨ev, by simp⟩
    · exact .inl (by simp [h])
  · exact .inl rfl

theorem nstep_node_or (N : NetConf L) (s : Net) (e : NEvent) (x : Str) :
    (nstep N s e).node x = s.node x ∨ ∃ ev, (nstep N s e).node x = cstep (N.conf x) (s.node x) ev := by
  cases e with
  | node y ev => exact nodeStep_node_or N s y ev x
  | deliver i clk =>
    simp only [nstep]
    split
    · exact .inl rfl
    · split
      · split
        · exact .inl rfl
        · exact nodeStep_node_or N { s with flight := s.flight.eraseIdx i } _ _ x
      · exact .inl rfl

/-- An accusation of the round that is posted to a gossiper. -/
theorem shown_run {N : NetConf L} {pub : L.BlsSec → L.BlsPub} {R : Round} (hN : NetOK N pub R) {s : Net} (hr : NReach N s)
    (hI : CInv N pub R s) (es : List NEvent) (hw : ∀ e ∈ es, e.noWipe = true) (he : ∀ e ∈ es, e.ok N pub R) {x : Str} (hx : x ∈ N.ids) {o : GossipObj}
    (ht : o.type = .ACC_INIT) (hp : o.payload.p0 = R.pay.p0) (hv : o.verify (N.conf x).crypto = .ok)
    (hsh : (∃ clk n, NEvent.node x (clk, .recv n o) ∈ es) ∨ AccShown (N.conf x) R o (s.node x)) (hu : (nrun N s es).up x) :
    AccShown (N.conf x) R o ((nrun N s es).node x) := by
  induction es generalizing s with
  | nil =>
    rcases hsh with ⟨_, _, h⟩ | h
    · cases h
    · exact h
  | cons e es ih =>
    have hI' := cinv_step hN hI e (hw e (by simp)) (he e (by simp))
    refine ih (hr.step e) hI' (fun e' h => hw e' (by simp [h])) (fun e' h => he e' (by simp [h])) ?_ hu
    have hu' : (nstep N s e).up x := up_mono es _ x (hr.step e) hu
    have hkeep : AccShown (N.conf x) R o (s.node x) → AccShown (N.conf x) R o ((nstep N s e).node x) := by
      intro hd
      have hn := nstep_node_or N s e x
      rcases hn with h | ⟨ev, h⟩
      · rw [h]; exact hd
      · have hu2 : (cstep (N.conf x) (s.node x) ev).g.crashed = false := by
          unfold Net.up at hu'; rw [h] at hu'; exact hu'
        rw [h]
        refine hd.step ⟨hN.env hx, hI.node x hx ?_, (hI.reach x).sound, ((hI.reach x).step ev).sound, cstep_cact _ _ _ hu2⟩ ht hp hv
        exact up_before _ hu2
    rcases hsh with ⟨clk, n, h⟩ | h
    · rcases List.mem_cons.1 h with h | h
      · right
        subst h
        have hup : (s.node x).g.crashed = false := by
          unfold Net.up at hu'
          simp only [nstep, nodeStep, if_pos hx, if_true] at hu'
          exact up_before _ hu'
        refine .inr (.inr ⟨.recv n o, .inl ⟨n, rfl⟩, ?_⟩)
        simp only [nstep, nodeStep, if_pos hx, if_true]
        unfold cstep
        rw [hup]
        exact Under.new
      · exact .inl ⟨clk, n, h⟩
    · exact .inr (hkeep h)

end CTng
