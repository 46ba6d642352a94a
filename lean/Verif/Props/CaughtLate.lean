import Verif.Props.NetworkSplit
import Verif.Props.GossiperSeq2
/- C36 for concurrent handlers: equivocation is missed only by a handler that looks before the other one has stored. -/
set_option autoImplicit false

namespace CTng
variable {L : Lib} {cf : GConf L} {c c' : CState} {k : GossipID}

/-- Program points of the handler of an INIT object up to its equivocation check
(gossiper/gossiper_server.go:151-207, 210-222). -/
def BeforeCheck (o : GossipObj) (f : Frame) : Prop :=
  (∃ n, f = .recv n o) ∨ f = .recon o ∨ f = .handle o ∨ f = .blk o ∨ f = .initFull o ∨ f = .initFrag o ∨ f = .initMal o

/-- The handler is on its way to the conflict, or the entity is caught already. -/
def OnTheWay (cf : GConf L) (c : CState) (k : GossipID) (o : GossipObj) : Prop :=
  (∃ f, BeforeCheck o f ∧ Pending c f) ∨ Pending c (.initCon o) ∨ Caught cf c k.entity

theorem onTheWay_act (hs : Sound cf c) (hi : ∀ k : GossipID, k.type = .CON_INIT → NodeInv cf c k) (hth : 0 < cf.crypto.threshold)
    {o v : GossipObj} (hk : k.type = .STH_INIT) (ho : Carrier cf k o)
    (hv : (c.g.storage.objs .STH_INIT).get k = some v ∨ c.g.blacklist.has k.entity = true)
    (hsg : o.signer = v.signer) (hne : o.sig ≠ v.sig) (ha : Act cf c c') (h : OnTheWay cf c k o) : OnTheWay cf c' k o := by
  have htype : o.type = .STH_INIT := (congrArg GossipID.type ho.id : o.type = k.type).trans hk
  have hent : o.payload.p0 = k.entity := congrArg GossipID.entity ho.id
  have hty : o.type = .STH_INIT ∨ o.type = .REV_INIT := .inl htype
  have caught : Caught cf c k.entity → OnTheWay cf c' k o := fun h => .inr (.inr (h.act hs hi hth ha))
  rcases hv with hv | hb
  case inr => exact caught (.inl hb)
  rcases h with h | h | h
  · obtain ⟨f, hf, hp⟩ := h
    cases ha with
    | idle h1 h2 h3 keep rev => exact .inl ⟨f, hf, keep f hp⟩
    | exec clk f0 hp0 hg keep next rev =>
      by_cases e : f = f0
      · subst e
        have go : ∀ f', BeforeCheck o f' → (stepFrame cf clk c.g f).2 = some [f'] → OnTheWay cf c' k o :=
          fun f' h1 h2 => .inl ⟨f', h1, next _ f' h2 rfl⟩
        rcases hf with ⟨n, rfl⟩ | rfl | rfl | rfl | rfl | rfl | rfl
        · exact go (.recon o) (by simp [BeforeCheck]) (by simp [stepFrame, htype])
        · exact go (.handle o) (by simp [BeforeCheck]) (by simp [stepFrame, htype])
        · cases hd : dupCheck c.g o with
          | true =>
            obtain ⟨w, h1, h2⟩ := dupCheck_sig htype hd
            rw [ho.id, hv] at h1; cases h1
            exact absurd h2.symm hne
          | false => exact go (.blk o) (by simp [BeforeCheck]) (by simp [stepFrame, hd])
        · cases hb : inBlacklist c.g o.payload.p0 with
          | true => rw [hent] at hb; exact caught (.inl hb)
          | false => exact go (.initFull o) (by simp [BeforeCheck]) (by simp [stepFrame, hb, htype])
        · exact go (.initFrag o) (by simp [BeforeCheck]) (by simp [stepFrame, full_count_zero hs hty])
        · refine go (.initMal o) (by simp [BeforeCheck]) ?_
          have h0 := frag_count_zero hs hty
          simp only [stepFrame, h0]
          rw [if_neg (by simp; omega)]
          simp [htype]
        · have hgo : getObject c.g o.getID .STH_INIT = v := by simp [getObject, ho.id, hv]
          have hm : isMalicious c.g o = true := by
            unfold isMalicious
            rw [htype]
            simp [hgo, hsg, hne]
          exact .inr (.inl (next [.initCon o] _ (by simp [stepFrame, hm]) rfl))
      · exact .inl ⟨f, hf, keep f e hp⟩
  · have hh : HeldKey c k := heldKey_get.2 ⟨v, by rw [hk]; exact hv⟩
    rcases initCon_act hs ha hk ho hh h with h | h
    · exact .inr (.inl h)
    · exact .inr (.inr h)
  · exact caught h

theorem crun_up {h : List (Clock × CEvent)} (hu : (crun cf c h).g.crashed = false) : c.g.crashed = false := by
  induction h generalizing c with
  | nil => exact hu
  | cons e r ih => exact up_before cf (ih (c := cstep cf c e) hu)

/-- A conflict proof that is held has blacklisted its entity or is about to. -/
theorem CReach.conInv (hc : CReach cf c) (hu : c.g.crashed = false) : ∀ k : GossipID, k.type = .CON_INIT → NodeInv cf c k := by
  obtain ⟨h, rfl⟩ := hc
  have key : ∀ (h : List (Clock × CEvent)) (c : CState), CReach cf c → (crun cf c h).g.crashed = false →
      (∀ k : GossipID, k.type = .CON_INIT → NodeInv cf c k) → ∀ k : GossipID, k.type = .CON_INIT → NodeInv cf (crun cf c h) k := by
    intro h
    induction h with
    | nil => exact fun c _ _ hi => hi
    | cons e r ih =>
      intro c hc hu hi
      refine ih (cstep cf c e) (hc.step e) hu (fun k hk => ?_)
      exact (hi k hk).act hc.sound (.inl hk) (cstep_act cf c e (crun_up (c := cstep cf c e) hu)) (.inl hk)
  refine key h CState.init ⟨[], rfl⟩ hu (fun k hk => ⟨fun _ hh => ?_, fun h => absurd hk h, .inl hk⟩)
  obtain ⟨o, ho⟩ := heldKey_get.1 hh
  rw [hk] at ho
  simp [CState.init, GState.init, Storage.init, Storage.objs, GoMap.get_empty] at ho

/-- C36 under every schedule, what holds: equivocation is missed only if the handler of the second tree head looks for the first one
before it is stored or after it is gone. If the first tree head is held while the handler of the second has not made its check yet,
and stays held until the log is blacklisted, then the log is blacklisted when the handlers have finished, in whatever order the
goroutines ran and whatever else arrived. -/
theorem C36_overtaking_only_partial (cf : GConf L) (hT : 0 < cf.crypto.threshold) (c : CState) (hc : CReach cf c) (g1 g2 : GossipObj)
    (ht : g2.type = .STH_INIT) (hid : g1.getID = g2.getID) (hsg : g1.signer = g2.signer) (hne : g1.sig ≠ g2.sig) (hs0 : g1.signer ≠ [])
    (hv2 : g2.verify cf.crypto = .ok)
    (hp : ∃ th ∈ c.threads, ∃ f, th.frames.head? = some f ∧ ((∃ n, f = .recv n g2) ∨ f = .recon g2 ∨ f = .handle g2 ∨ f = .blk g2 ∨
      f = .initFull g2 ∨ f = .initFrag g2 ∨ f = .initMal g2))
    (h : List (Clock × CEvent))
    (hh : ∀ a b, h = a ++ b → HeldAs (crun cf c a).g.storage g1.getID g1 .STH_INIT ∨
      (crun cf c a).g.blacklist.has g1.payload.p0 = true)
    (hu : (crun cf c h).g.crashed = false) (hd : ∀ th ∈ (crun cf c h).threads, th.frames = []) :
    (crun cf c h).g.blacklist.has g1.payload.p0 = true := by
  have hk : g1.getID.type = .STH_INIT := (congrArg GossipID.type hid).trans ht
  have ho : Carrier cf g1.getID g2 := ⟨hid.symm, hv2, .inr (hsg ▸ hs0)⟩
  have key : ∀ (h : List (Clock × CEvent)) (c : CState), CReach cf c → (crun cf c h).g.crashed = false →
      (∀ a b, h = a ++ b → HeldAs (crun cf c a).g.storage g1.getID g1 .STH_INIT ∨
        (crun cf c a).g.blacklist.has g1.payload.p0 = true) →
      OnTheWay cf c g1.getID g2 → OnTheWay cf (crun cf c h) g1.getID g2 := by
    intro h
    induction h with
    | nil => exact fun c _ _ _ h => h
    | cons e r ih =>
      intro c hc hu hh hw
      have hu1 := crun_up (c := cstep cf c e) (h := r) hu
      refine ih (cstep cf c e) (hc.step e) hu (fun a b hab => hh (e :: a) b (by simp [hab])) ?_
      refine onTheWay_act (v := g1) hc.sound (hc.conInv (up_before cf hu1)) hT hk ho ?_ hsg.symm (fun h => hne h.symm) (cstep_act cf c e hu1) hw
      rcases hh [] (e :: r) rfl with h | h
      · exact .inl (heldAs_iff.1 h)
      · exact .inr h
  obtain ⟨th, h1, f, h2, h3⟩ := hp
  have hno := not_pending_of_idle hd
  rcases key h c hc hu hh (.inl ⟨f, h3, th, h1, h2⟩) with ⟨f, _, h⟩ | h | h | ⟨g, h, _⟩ | ⟨o, _, _, _, f, _, h⟩
  · exact absurd h (hno _)
  · exact absurd h (hno _)
  · exact h
  · exact absurd h (hno _)
  · exact absurd h (hno _)

/-- C36: both tree heads arrive at once; the handler of the second one is at its check when the first one has been stored and its
handler goes on to send it. The rest of the two handlers runs in turns and the log is blacklisted. -/
example : (crun Ref.gconf CState.init (
    [(Ref.clk, .recv 10 Ref.sth), (Ref.clk, .recv 10 Ref.sth')] ++ List.replicate 6 (Ref.clk, .run 1) ++ List.replicate 8 (Ref.clk, .run 0) ++
    (List.replicate 15 [(Ref.clk, .run 0), (Ref.clk, .run 1)]).flatten)).g.blacklist.has (go!"L1") = true := by
  have hsplit := crun_append Ref.gconf CState.init ([(Ref.clk, .recv 10 Ref.sth), (Ref.clk, .recv 10 Ref.sth')] ++
    List.replicate 6 (Ref.clk, .run 1) ++ List.replicate 8 (Ref.clk, .run 0)) (List.replicate 15 [(Ref.clk, .run 0), (Ref.clk, .run 1)]).flatten
  rw [hsplit]
  refine C36_overtaking_only_partial Ref.gconf (by decide) _ ⟨_, rfl⟩ Ref.sth Ref.sth' (by decide +kernel) (by decide +kernel)
    (by decide +kernel) (by decide +kernel) (by decide +kernel) (by decide +kernel) ?_ _ ?_ (by decide +kernel) (by decide +kernel)
  · exact ⟨⟨[.initMal Ref.sth'], false⟩, by decide +kernel, .initMal Ref.sth', rfl, by simp⟩
  · have hall : ∀ n ≤ 30, (crun Ref.gconf (crun Ref.gconf CState.init ([(Ref.clk, .recv 10 Ref.sth), (Ref.clk, .recv 10 Ref.sth')] ++
        List.replicate 6 (Ref.clk, .run 1) ++ List.replicate 8 (Ref.clk, .run 0)))
        ((List.replicate 15 [(Ref.clk, .run 0), (Ref.clk, .run 1)]).flatten.take n)).g.storage.sthInit.get Ref.sth.getID = some Ref.sth := by
      decide +kernel
    intro a b hab
    left
    have hn : a.length ≤ 30 := by
      have := congrArg List.length hab
      simp at this; omega
    have := hall a.length hn
    rw [hab, List.take_left] at this
    exact heldAs_iff.2 this

end CTng
