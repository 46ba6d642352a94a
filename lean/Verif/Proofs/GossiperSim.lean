import Verif.Proofs.GossiperBasic
/- A goroutine that runs without interference computes exactly the sequential handler. -/
set_option autoImplicit false

namespace CTng
variable {L : Lib} (cf : GConf L) (clk : Clock)

/-- A goroutine running alone: shared state, stack, and whether it panicked. -/
structure Solo where
  s : GState
  fs : List Frame
  panicked : Bool

/-- Steps of a goroutine running alone at one clock reading. -/
inductive Steps : Solo → Solo → Prop
  | refl (c) : Steps c c
  | step {s s' f fs new c} : stepFrame cf clk s f = (s', some new) → Steps ⟨s', new ++ fs, false⟩ c →
      Steps ⟨s, f :: fs, false⟩ c
  | panic {s s' f fs} : stepFrame cf clk s f = (s', none) → Steps ⟨s, f :: fs, false⟩ ⟨s', [], true⟩

theorem Steps.trans {a b c : Solo} (h : Steps cf clk a b) (h' : Steps cf clk b c) : Steps cf clk a c := by
  induction h with
  | refl => exact h'
  | step e _ ih => exact .step e (ih h')
  | panic e => cases h' with
    | refl => exact .panic e

/-- Where a handler leaves the goroutine: it returns to the rest of the stack, or unwinds it. -/
def finish (r : GState × Bool) (fs : List Frame) : Solo :=
  if r.2 then ⟨r.1, [], true⟩ else ⟨r.1, fs, false⟩

@[simp] theorem finish_ok (s : GState) (fs : List Frame) : finish (s, false) fs = ⟨s, fs, false⟩ := rfl
@[simp] theorem finish_panic (s : GState) (fs : List Frame) : finish (s, true) fs = ⟨s, [], true⟩ := rfl

theorem store_sim (s : GState) (g : GossipObj) (fs : List Frame) :
    Steps cf clk ⟨s, .store g :: fs, false⟩
      (match storeGossipObject cf clk s g with
       | (s', .panic) => ⟨s', [], true⟩
       | (s', .refused) => ⟨s', afterStore g false ++ fs, false⟩
       | (s', .stored) => ⟨s', afterStore g true ++ fs, false⟩) := by
  unfold storeGossipObject
  cases hv : g.verify cf.crypto with
  | panic => exact .panic (by simp [stepFrame, hv])
  | err e => exact .step (by simp only [stepFrame, hv]) (.refl _)
  | ok =>
    simp only
    cases hl : storeLocked { s with timerlist := s.timerlist ++ [clk.second] } g with
    | mk s1 b =>
      cases b with
      | false => exact .step (by simp only [stepFrame, hv, hl]) (.refl _)
      | true =>
        refine .step (s' := s1) (new := [.storeBl g]) (by simp only [stepFrame, hv, hl]) ?_
        refine .step (s' := storeBlacklist s1 g) (new := [.storeNote g]) rfl ?_
        exact .step (s' := storeNote cf clk (storeBlacklist s1 g) g) (new := afterStore g true) rfl (.refl _)

/-- Shape of the claim for one object. -/
def SimAt (g : GossipObj) : Prop :=
  ∀ s fs, Steps cf clk ⟨s, .handle g :: fs, false⟩ (finish (handle cf clk s g) fs)

theorem sim_con {g : GossipObj} (h : g.type = .CON_INIT) : SimAt cf clk g := by
  intro s fs
  rw [handle_eq]
  unfold dispatch
  split
  · rename_i hd
    exact .step (s' := s) (new := []) (by simp [stepFrame, hd]) (.refl _)
  · rename_i hd
    refine .step (s' := s) (new := [.blk g]) (by simp [stepFrame, hd]) ?_
    split
    · rename_i hb
      exact .step (s' := s) (new := []) (by simp [stepFrame, hb]) (.refl _)
    · rename_i hb
      refine .step (s' := s) (new := [.conCount g]) (by simp [stepFrame, hb, h]) ?_
      rw [h]
      simp only [handleCon]
      rw [h]
      split
      · rename_i hc
        refine .step (s' := s) (new := [.store g]) (by simp [stepFrame, h, hc]) ?_
        refine .trans _ _ (store_sim cf clk s g fs) ?_
        rcases hs : storeGossipObject cf clk s g with ⟨s1, r⟩
        cases r with
        | panic => exact .refl _
        | refused => simp only [afterStore, h]; exact .refl _
        | stored =>
          simp only [afterStore, h, if_true]
          refine .step (new := []) (s' := sendToGossipers cf s1 g) rfl ?_
          exact .step (new := []) (s' := sendToMonitor (sendToGossipers cf s1 g) g) rfl (.refl _)
      · rename_i hc
        exact .step (s' := s) (new := []) (by simp [stepFrame, h, hc]) (.refl _)

theorem sim_full {g : GossipObj} (h : g.type.isFull = true) : SimAt cf clk g := by
  intro s fs
  rw [handle_full cf clk h]
  split
  · rename_i hd
    exact .step (s' := s) (new := []) (by simp [stepFrame, hd]) (.refl _)
  · rename_i hd
    refine .step (s' := s) (new := [.blk g]) (by simp [stepFrame, hd]) ?_
    split
    · rename_i hb
      exact .step (s' := s) (new := []) (by simp [stepFrame, hb]) (.refl _)
    · rename_i hb
      refine .step (s' := s) (new := [.fullBlk g]) (by
        simp only [stepFrame, hb]
        revert h; cases g.type <;> simp [GType.isFull]) ?_
      unfold handleFull
      rw [if_neg hb]
      refine .step (s' := s) (new := [.fullCount g]) (by simp [stepFrame, hb]) ?_
      have ha : ∀ b, afterStore g b = [.sendOwner g, .fullNote] := by
        intro b; unfold afterStore; revert h; cases g.type <;> simp [GType.isFull]
      split
      · rename_i hc
        refine .step (s' := s) (new := [.store g]) (by simp [stepFrame, hc]) ?_
        refine .trans _ _ (store_sim cf clk s g fs) ?_
        rcases hs : storeGossipObject cf clk s g with ⟨s1, r⟩
        have hfin : Steps cf clk ⟨s1, [.sendOwner g, .fullNote] ++ fs, false⟩
            ⟨noteConverge cf clk (sendToMonitor s1 g), fs, false⟩ :=
          .step (new := []) (s' := sendToMonitor s1 g) rfl (.step (new := []) rfl (.refl _))
        cases r with
        | panic => exact .refl _
        | refused => simp only [ha]; exact hfin
        | stored => simp only [ha]; exact hfin
      · rename_i hc
        refine .step (s' := s) (new := [.fullNote]) (by simp [stepFrame, hc]) ?_
        exact .step (new := []) rfl (.refl _)

theorem sim_other {g : GossipObj} (h : g.type.isOther = true) : SimAt cf clk g := by
  intro s fs
  rw [handle_eq]
  unfold dispatch
  cases ht : g.type <;> rw [ht] at h <;> simp only [GType.isOther, Bool.false_eq_true] at h
  split
  · rename_i hd
    exact .step (s' := s) (new := []) (by simp [stepFrame, hd]) (.refl _)
  · rename_i hd
    refine .step (s' := s) (new := [.blk g]) (by simp [stepFrame, hd]) ?_
    split
    · rename_i hb
      exact .step (s' := s) (new := []) (by simp [stepFrame, hb]) (.refl _)
    · rename_i hb
      exact .step (s' := s) (new := []) (by simp [stepFrame, hb, ht]) (.refl _)

theorem sim_frag {g : GossipObj} (h : g.type.isFrag = true) : SimAt cf clk g := by
  intro s fs
  rw [handle_frag cf clk h]
  split
  · rename_i hd
    exact .step (s' := s) (new := []) (by simp [stepFrame, hd]) (.refl _)
  · rename_i hd
    refine .step (s' := s) (new := [.blk g]) (by simp [stepFrame, hd]) ?_
    split
    · rename_i hb
      exact .step (s' := s) (new := []) (by simp [stepFrame, hb]) (.refl _)
    · rename_i hb
      refine .step (s' := s) (new := [.fragFull g]) (by
        simp only [stepFrame, hb]
        revert h; cases g.type <;> simp [GType.isFrag]) ?_
      unfold handleFrag
      split
      · rename_i hc
        exact .step (s' := s) (new := []) (by simp [stepFrame, hc]) (.refl _)
      · rename_i hc
        refine .step (s' := s) (new := [.fragStore g]) (by simp [stepFrame, hc]) ?_
        rcases hr : readAndStore cf s g with ⟨s1, before⟩
        refine .step (s' := s1) (by simp only [stepFrame, hr]; rfl) ?_
        simp only
        have fin : ∀ s2, Steps cf clk ⟨s2, (if (before : Int) < cf.crypto.threshold then [.sendPeers g] else []) ++ fs, false⟩
            (finish (if (before : Int) < cf.crypto.threshold then (sendToGossipers cf s2 g, false) else (s2, false)) fs) := by
          intro s2
          split
          · exact .step (new := []) rfl (.refl _)
          · exact .refl _
        by_cases hb : (before : Int) = cf.crypto.threshold - 1
        · simp only [hb, if_true]
          cases hg : generateFULL cf clk (getObjectList s1 g.getID g.type) g.getTargetType with
          | none => exact .panic (by simp [stepFrame, hg])
          | some o =>
            refine .step (new := [.handle o]) (s' := s1.emit [.generatedFull g.getID o]) (by simp [stepFrame, hg]) ?_
            have ho : o.type.isFull = true := by rw [generateFULL_type hg]; exact getTargetType_isFull h
            simp only [List.nil_append, List.cons_append]
            rw [← hb]
            refine .trans _ _ (sim_full cf clk ho _ _) ?_
            rcases handle cf clk (s1.emit [.generatedFull g.getID o]) o with ⟨s2, b⟩
            cases b with
            | true => exact .refl _
            | false => exact fin s2
        · simp only [hb, if_false, List.nil_append]
          exact fin s1

theorem sim_init {g : GossipObj} (h : g.type.isInit = true) : SimAt cf clk g := by
  intro s fs
  rw [handle_eq]
  unfold dispatch
  split
  · rename_i hd
    exact .step (s' := s) (new := []) (by simp [stepFrame, hd]) (.refl _)
  · rename_i hd
    refine .step (s' := s) (new := [.blk g]) (by simp [stepFrame, hd]) ?_
    split
    · rename_i hb
      exact .step (s' := s) (new := []) (by simp [stepFrame, hb]) (.refl _)
    · rename_i hb
      refine .step (s' := s) (new := [.initFull g]) (by
        simp only [stepFrame, hb]
        revert h; cases g.type <;> simp [GType.isInit]) ?_
      have core : ∀ full frag, (g.type = .STH_INIT ∨ g.type = .REV_INIT) →
          full = fullOfInit g.type →
          frag = fragOfInit g.type →
          Steps cf clk ⟨s, [Frame.initFull g] ++ fs, false⟩ (finish (handleInit cf clk full frag (handle cf clk) s g) fs) := by
        intro full frag ht hfull hfrag
        unfold handleInit
        split
        · rename_i hc
          refine .step (new := []) ?_ (.refl _)
          simp only [stepFrame, ← hfull, hc, if_true]
        · rename_i hc
          refine .step (s' := s) (new := [.initFrag g]) (by simp only [stepFrame, ← hfull, hc, if_false]) ?_
          split
          · rename_i hf
            refine .step (new := []) ?_ (.refl _)
            simp only [stepFrame, ← hfrag, hf, if_true]
          · rename_i hf
            refine .step (s' := s) (new := [.initMal g]) (by
              simp only [stepFrame, ← hfrag, hf, if_false]
              rcases ht with ht | ht <;> rw [ht]) ?_
            split
            · rename_i hm
              refine .step (s' := s) (new := [.initCon g]) (by simp [stepFrame, hm]) ?_
              refine .step (new := [.handle (generateCON clk (getObject s g.getID g.type) g)]) (s' := s) rfl ?_
              exact sim_con cf clk rfl _ _
            · rename_i hm
              refine .step (s' := s) (new := [.store g]) (by simp [stepFrame, hm]) ?_
              refine .trans _ _ (store_sim cf clk s g fs) ?_
              have ha : ∀ b, afterStore g b = if b then [.sendPeers g, .sendOwner g, .arm g] else [] := by
                intro b; unfold afterStore; rcases ht with ht | ht <;> rw [ht]
              rcases hs : storeGossipObject cf clk s g with ⟨s1, r⟩
              cases r with
              | panic => exact .refl _
              | refused => simp only [ha]; exact .refl _
              | stored =>
                simp only [ha, if_true]
                refine .step (new := []) (s' := sendToGossipers cf s1 g) rfl ?_
                refine .step (new := []) (s' := sendToMonitor (sendToGossipers cf s1 g) g) rfl ?_
                exact .step (new := []) rfl (.refl _)
      cases ht : g.type <;> rw [ht] at h <;> simp only [GType.isInit, Bool.false_eq_true] at h
      · exact core _ _ (.inl ht) (by rw [ht]; rfl) (by rw [ht]; rfl)
      · exact core _ _ (.inr ht) (by rw [ht]; rfl) (by rw [ht]; rfl)
      · simp only
        unfold handleAcc
        split
        · rename_i hc
          refine .step (new := []) ?_ (.refl _)
          simp only [stepFrame, ht, fullOfInit, hc, if_true]
        · rename_i hc
          refine .step (s' := s) (new := [.initFrag g]) (by simp only [stepFrame, ht, fullOfInit, hc, if_false]) ?_
          split
          · rename_i hf
            refine .step (new := []) ?_ (.refl _)
            simp only [stepFrame, ht, fragOfInit, hf, if_true]
          · rename_i hf
            refine .step (s' := s) (new := [.store g]) (by simp only [stepFrame, ht, fragOfInit, hf, if_false]) ?_
            refine .trans _ _ (store_sim cf clk s g fs) ?_
            rcases hs : storeGossipObject cf clk s g with ⟨s1, r⟩
            cases r with
            | panic => exact .refl _
            | refused => simp only [afterStore, ht]; exact .refl _
            | stored =>
              simp only [afterStore, ht, if_true]
              split
              · rename_i hb
                refine .step (new := []) ?_ (.refl _)
                simp only [stepFrame, hb, if_true]
              · rename_i hb
                refine .step (new := [.sign g]) (s' := s1) (by simp only [stepFrame, hb]; rfl) ?_
                cases hg : signStatement cf s1 g with
                | none =>
                  simp only [finish_panic]
                  exact .panic (by simp only [stepFrame, hg])
                | some x =>
                  obtain ⟨s2, f⟩ := x
                  refine .step (new := [.handle f]) (s' := s2) (by simp only [stepFrame, hg]) ?_
                  have hf : f.type.isFrag = true := by
                    unfold signStatement at hg
                    cases hgen : generateFRAG cf g with
                    | none => simp [hgen] at hg
                    | some f' =>
                      simp [hgen] at hg
                      obtain ⟨_, rfl⟩ := hg
                      rw [generateFRAG_type hgen, ht]; rfl
                  exact sim_frag cf clk hf _ _

/-- A goroutine that starts `Handle_Gossip_object` and runs alone ends in the state the sequential handler computes. -/
theorem sim_handle (g : GossipObj) : SimAt cf clk g := by
  cases ht : g.type
  all_goals first
    | exact sim_init cf clk (by rw [ht]; rfl)
    | exact sim_frag cf clk (by rw [ht]; rfl)
    | exact sim_full cf clk (by rw [ht]; rfl)
    | exact sim_con cf clk ht
    | exact sim_other cf clk (by rw [ht]; rfl)

theorem sim_recv (n : Int) (g : GossipObj) (s : GState) (fs : List Frame) :
    Steps cf clk ⟨s, .recv n g :: fs, false⟩ (finish (gossipObjectHandler cf clk n s g) fs) := by
  unfold gossipObjectHandler
  simp only
  rcases hp : (if n > cf.optThreshold ∧ g.type = .REV_INIT
      then savePayload cf { s with trafficReceived := s.trafficReceived + n } g
      else ({ s with trafficReceived := s.trafficReceived + n }, true)) with ⟨s1, b⟩
  cases b with
  | false => exact .panic (by simp only [stepFrame, hp])
  | true =>
    refine .step (new := [.recon g]) (s' := s1) (by simp only [stepFrame, hp]) ?_
    refine .step (new := [.handle _]) (s' := s1) rfl ?_
    exact sim_handle cf clk _ s1 fs

theorem sim_fire (g : GossipObj) (s : GState) (fs : List Frame) :
    Steps cf clk ⟨s, .signBlk g :: fs, false⟩ (finish (timerFire cf clk s g) fs) := by
  unfold timerFire
  split
  · rename_i hb
    exact .step (s' := s) (new := []) (by simp [stepFrame, hb]) (.refl _)
  · rename_i hb
    refine .step (new := [.sign g]) (s' := s) (by simp only [stepFrame, hb]; rfl) ?_
    cases hg : signStatement cf s g with
    | none =>
      simp only [finish_panic]
      exact .panic (by simp only [stepFrame, hg])
    | some x =>
      obtain ⟨s2, f⟩ := x
      refine .step (new := [.handle f]) (s' := s2) (by simp only [stepFrame, hg]) ?_
      exact sim_handle cf clk f s2 fs

end CTng
