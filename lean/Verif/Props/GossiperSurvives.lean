import Verif.Props.GossiperMisc
import Verif.Props.Saves
import Verif.Props.Wire
/- C150: what is sent to a gossiper does not end its process. -/
set_option autoImplicit false

namespace CTng
variable {L : Lib}

/-- What the theorems below need of the libraries: json.Unmarshal accepts the text `ThresholdSig.String` writes (proved
for encoding/json in `aggChecks_json`), and FastAggregateVerify, called on a signature that is not nil, returns. -/
structure Lib.AggChecks (L : Lib) : Prop where
  decodes : ∀ (σ : L.BlsSig) (ids : List Str),
    L.jsonThreshold (go!"{\"sign\":\"" ++ L.blsSerHex σ ++ go!"\", \"ids\":" ++ L.jsonStrList ids ++ go!"}") ≠ none
  returns : ∀ (σ : L.BlsSig) pubs msg, L.blsFastAggVerify (some σ) pubs msg ≠ .panic

/-- encoding/json accepts every text `ThresholdSig.String` writes, whatever bytes the ids consist of. -/
theorem aggChecks_json (L : Lib) (hs : ∀ σ, Safe (L.blsSerHex σ))
    (hr : ∀ (σ : L.BlsSig) pubs msg, L.blsFastAggVerify (some σ) pubs msg ≠ .panic) : (L.withJson).AggChecks where
  decodes := by
    intro σ ids
    have hj : Json.NumOk (.arr (ids.map .str)) := Wire.numOkElems_map _ _ fun _ _ => trivial
    have i0 : Wire.fieldIndex [go!"Sign", go!"IDs"] (go!"sign") = some 0 := by decide +kernel
    have i1 : Wire.fieldIndex [go!"Sign", go!"IDs"] (go!"ids") = some 1 := by decide +kernel
    have hl := Wire.dList_map [] Wire.dStr (fun s => .str (Json.sanitize s)) Json.sanitize ids fun _ _ => rfl
    have hv : Safe (L.blsSerHex σ) := hs σ
    simp only [Lib.withJson, Wire.unmarshal, Wire.parse_threshold (L.blsSerHex σ) _ hj hv, Wire.dThreshold, Wire.dStruct,
      List.foldl_cons, List.foldl_nil, Wire.dMember, i0, i1, Json.clean, Wire.cleanElems_map, List.map_map,
      Function.comp_def, hl]
    simp [Wire.dStr]
  returns := hr

/-- The check of an aggregate that the gossiper generated itself returns. -/
theorem generateFULL_noPanic {cf : GConf L} (A : L.AggChecks) {clk : Clock} {gs : List GossipObj} {t : GType}
    {o : GossipObj} (ht : t.isFull = true) (h : generateFULL cf clk gs t = some o) : o.verify cf.crypto ≠ .panic := by
  have key : verifyPayloadThreshold o cf.crypto ≠ .panic := by
    unfold generateFULL at h
    split at h
    · cases h
    · cases h
    · rename_i a ha
      split at h
      · rename_i str g0 gs' hstr
        cases h
        unfold ThresholdSig.toStr at hstr
        cases hσ : a.sign with
        | none => rw [hσ] at hstr; cases hstr
        | some σ =>
          rw [hσ] at hstr
          simp only [Option.map_some, Option.some.injEq] at hstr
          have hd := A.decodes σ a.ids
          rw [hstr] at hd
          have hs : ∃ σ' ids, (ThresholdSig.fromStr L str).1 = { ids := ids, sign := some σ' } := by
            unfold ThresholdSig.fromStr
            split
            · rename_i hn; exact absurd hn hd
            · split <;> exact ⟨_, _, rfl⟩
          obtain ⟨σ', ids, he⟩ := hs
          unfold verifyPayloadThreshold
          split
          · simp only [he]
            have hv : ∀ msg, cf.crypto.thresholdVerify msg { ids := ids, sign := some σ' } ≠ .panic := by
              intro msg
              unfold CryptoConfig.thresholdVerify
              split
              · unfold ThresholdSig.verify
                have := A.returns σ' (ids.map fun i => (cf.crypto.thresholdPublicMap.get i).getD L.blsZeroPub) msg
                simp only
                split
                · simp
                · simp
                · rename_i hp; exact absurd hp this
              · simp
            split
            · simp
            · rename_i hp; exact absurd hp (hv _)
            · simp
          · simp
      · cases h
  have hot := generateFULL_type h
  unfold GossipObj.verify
  rw [hot]
  cases t <;> first | exact key | simp [GType.isFull] at ht

theorem generateFRAG_some {cf : GConf L} (hb : cf.crypto.thresholdScheme = go!"bls") (g : GossipObj) :
    ∃ f, generateFRAG cf g = some f := by
  unfold generateFRAG CryptoConfig.thresholdSign
  rw [if_pos hb]
  exact ⟨_, rfl⟩

/-- Handling a fragment one at a time does not panic. -/
theorem handle_frag_noPanic {cf : GConf L} (A : L.AggChecks) (hb : cf.crypto.thresholdScheme = go!"bls") (clk : Clock)
    (s : GState) {g : GossipObj} (ht : g.type.isFrag = true) : (handle cf clk s g).2 = false := by
  rw [handle_frag cf clk ht]
  split
  · rfl
  · split
    · rfl
    · unfold handleFrag
      split
      · rfl
      · rw [readAndStore_frag cf ht]
        by_cases hl : ((s.storage.fragList g.type g.getID).length : Int) < cf.crypto.threshold
        · rw [if_pos hl]
          by_cases hc : ((s.storage.fragList g.type g.getID).length : Int) = cf.crypto.threshold - 1
          · obtain ⟨o, ho⟩ := generateFULL_some cf clk hb (s.storage.fragList g.type g.getID ++ [g]) g.getTargetType
              (by simp) (by rw [List.length_append, List.length_singleton]; omega)
            have hot : o.type.isFull = true := by rw [generateFULL_type ho]; exact getTargetType_isFull ht
            have hnp := generateFULL_noPanic (cf := cf) A (getTargetType_isFull ht) ho
            simp only [hc, if_true, getObjectList, Storage.fragList_appendFrag_same _ _ _ _ ht, ho]
            generalize ({ s with storage := s.storage.appendFrag g.type g.getID g } : GState).emit
              [.generatedFull g.getID o] = s1
            have hh : (handle cf clk s1 o).2 = false := by
              rw [handle_full cf clk hot s1]
              split
              · rfl
              · split
                · rfl
                · unfold handleFull
                  split
                  · rfl
                  · split
                    · unfold storeGossipObject
                      cases hv : o.verify cf.crypto with
                      | panic => exact absurd hv hnp
                      | err e => rfl
                      | ok =>
                        simp only
                        split
                        · rename_i h; split at h <;> cases h
                        · rfl
                    · rfl
            rcases hq : handle cf clk s1 o with ⟨s2, b⟩
            rw [hq] at hh
            simp only at hh
            subst hh
            simp only
            split <;> rfl
          · simp only [hc, if_false, hl, if_true]
        · have hne : ¬ (((s.storage.fragList g.type g.getID).length : Int) = cf.crypto.threshold - 1) := by omega
          rw [if_neg hl]
          simp only [hne, hl, if_false]

theorem crashed_closed (cf : GConf L) (b : Bool) : HClosed cf (fun s => s.crashed = b) := by
  refine FineClosed.closed cf ?_ |>.hclosed cf
  constructor
  · intro clk s g h _ _ _ _ _; simp [storedState, h]
  · intro s g h _ _ _ _; exact h
  · intro s g h; simp [h]
  · intro s g h; exact h
  · intro s f h; exact h
  · intro s k o h; exact h
  · intro s g h; exact h
  · intro clk s h; unfold noteConverge; split <;> exact h

theorem crashed_recv (cf : GConf L) (clk : Clock) (n : Int) (s : GState) (g : GossipObj) :
    (gossipObjectHandler cf clk n s g).1.crashed = s.crashed := by
  unfold gossipObjectHandler
  simp only
  generalize hs0 : ({ s with trafficReceived := s.trafficReceived + n } : GState) = s0
  have h1 : s0.crashed = s.crashed := by rw [← hs0]
  split
  · rename_i s1 hq
    split at hq
    · have := crashed_savePayload cf s0 g
      rw [hq] at this
      simpa [h1] using this
    · cases hq
  · rename_i s1 hq
    have h2 : s1.crashed = s.crashed := by
      split at hq
      · have := crashed_savePayload cf s0 g
        rw [hq] at this
        simpa [h1] using this
      · cases hq; exact h1
    exact (crashed_closed cf s.crashed).handle clk _ h2

/-- C150, for a gossiper that does one thing at a time: with the bls scheme no history of messages (of any content),
notifications, requests, timers and wipes ends the process. Missing: events that overlap, see
`C150_only_by_overtaking_partial` and `C150_violated_one_fragment`, and other schemes, see
`C150_violated_other_scheme`. -/
theorem C150_one_at_a_time_partial (A : L.AggChecks) (cf : GConf L) (hb : cf.crypto.thresholdScheme = go!"bls")
    (h : List (Clock × GOp)) : (grun cf GState.init h).crashed = false := by
  have key : ∀ s, GReach cf s → s.crashed = false := by
    intro s hs
    refine (hs.induct cf (P := fun s => GReach cf s ∧ s.crashed = false) ⟨GReach.init cf, rfl⟩ ?_).2
    rintro s ⟨clk, op⟩ ⟨hr, hc⟩
    refine ⟨hr.step cf _, ?_⟩
    unfold gstep
    rw [if_neg (by simp [hc])]
    cases op with
    | recv n o => simp only; rw [crashed_recv]; exact hc
    | notify n x => simp only; unfold notificationHandler; simp only; split <;> exact hc
    | request n x => simp only; unfold requestHandler; simp only; split <;> exact hc
    | periodic =>
      have h1 : (save clk s).crashed = s.crashed := crashed_stepFrame cf clk s .save
      have h2 : (wipeStorage (save clk s)).crashed = (save clk s).crashed := crashed_stepFrame cf clk (save clk s) .wipe
      exact h2.trans (h1.trans hc)
    | fire i =>
      simp only
      cases ht : s.timers[i]? with
      | none => exact hc
      | some o =>
        simp only
        have hi := hr.timersInit cf o (List.mem_of_getElem? ht)
        obtain ⟨f, hf⟩ := generateFRAG_some hb o
        have hft : f.type.isFrag = true := by
          rw [generateFRAG_type hf]
          cases hot : o.type <;> simp_all [GType.isInit, GType.isFrag]
        unfold timerFire signStatement
        rw [hf]
        simp only [Option.map_some]
        by_cases hbl : inBlacklist { s with timers := s.timers.eraseIdx i } o.payload.p0 = true
        · rw [if_pos hbl]; exact hc
        · rw [if_neg hbl]
          generalize hs1 : ({ s with timers := s.timers.eraseIdx i } : GState).emit [.signed f] = s1
          have h1 : s1.crashed = false := by rw [← hs1]; exact hc
          have h2 := handle_frag_noPanic (cf := cf) A hb clk s1 hft
          have h3 := (crashed_closed cf false).handle clk (s := s1) f h1
          rcases hq : handle cf clk s1 f with ⟨s2, b⟩
          rw [hq] at h2 h3
          simp only at h2 h3
          subst h2
          exact h3
  exact key _ ⟨h, rfl⟩

/-- The reference library meets the conditions (with encoding/json). -/
theorem Ref.aggChecks : (Ref.lib.withJson).AggChecks := by
  refine aggChecks_json Ref.lib Ref.blsLaws.hex_safe ?_
  intro σ pubs msg
  simp only [Ref.lib]
  split
  · simp
  · split <;> simp

/-- A gossiper with the JSON of the code is sent a tree head and a fragment that nobody signed; its timer fires, it
aggregates (the aggregate even verifies, see C22), and the process goes on. -/
example : let cf := Wire.wconf [go!"G1", go!"G2", go!"G3"] (go!"G1")
    let s := grun cf GState.init [(Ref.clk, .recv 10 Ref.sth),
      (Ref.clk, .recv 10 { Ref.frag (go!"G2") with sig := ⟨go!"junk", []⟩ }), (Ref.clk, .fire 0)]
    cf.crypto.thresholdScheme = go!"bls" ∧ s.crashed = false ∧
    ∃ o ∈ s.out, (match o with | .generatedFull _ f => f.verify cf.crypto = .ok | _ => False) :=
  ⟨rfl, C150_one_at_a_time_partial Ref.aggChecks _ rfl _, by
    generalize hs : (grun (Wire.wconf [go!"G1", go!"G2", go!"G3"] (go!"G1")) GState.init [(Ref.clk, .recv 10 Ref.sth),
      (Ref.clk, .recv 10 { Ref.frag (go!"G2") with sig := ⟨go!"junk", []⟩ }), (Ref.clk, .fire 0)]).out = out
    have h : (out.filterMap fun o => match o with
        | .generatedFull _ f => some (decide (f.verify (Wire.wconf [go!"G1", go!"G2", go!"G3"] (go!"G1")).crypto = .ok))
        | _ => none) = [true] := by rw [← hs]; decide +kernel
    have hm : true ∈ (out.filterMap fun o => match o with
        | .generatedFull _ f => some (decide (f.verify (Wire.wconf [go!"G1", go!"G2", go!"G3"] (go!"G1")).crypto = .ok))
        | _ => none) := by rw [h]; simp
    obtain ⟨o, ho, he⟩ := List.mem_filterMap.1 hm
    refine ⟨o, ho, ?_⟩
    cases o <;> simp at he
    exact he⟩

/-- Without the bls scheme every signing timer that fires for an entity not blacklisted ends the process: the fragment
has no signature to print. -/
theorem C150_violated_other_scheme (cf : GConf L) (hs : cf.crypto.thresholdScheme ≠ go!"bls") (s : GState)
    (hc : s.crashed = false) (i : Nat) (o : GossipObj) (ht : s.timers[i]? = some o)
    (hb : s.blacklist.has o.payload.p0 = false) (clk : Clock) : (gstep cf s (clk, .fire i)).crashed = true := by
  have hg : generateFRAG cf o = none := by
    unfold generateFRAG CryptoConfig.thresholdSign
    rw [if_neg hs]
    rfl
  unfold gstep
  rw [if_neg (by simp [hc])]
  simp only [ht]
  have hb' : inBlacklist { s with timers := s.timers.eraseIdx i } o.payload.p0 = false := hb
  unfold timerFire signStatement
  rw [hg, hb']
  rfl

/-- A tree head is enough: it is verified, stored, and its timer ends the process. -/
example : let cf := { Ref.gconf with crypto := { Ref.gconf.crypto with thresholdScheme := go!"rsa" } }
    (grun cf GState.init [(Ref.clk, .recv 10 Ref.sth)]).crashed = false ∧
    (grun cf GState.init [(Ref.clk, .recv 10 Ref.sth), (Ref.clk, .fire 0)]).crashed = true := by decide +kernel

/-! ### Under every schedule -/

/-- What the timer goroutines and the periodic task execute. -/
def FatalFrame (cf : GConf L) : Frame → Prop
  | .signBlk g | .sign g => g.type.isInit = true
  | .handle g | .blk g => g.type.isFrag = true ∨ (g.type.isFull = true ∧ g.verify cf.crypto ≠ .panic)
  | .fragFull g | .fragStore g | .fragGen g => g.type.isFrag = true
  | .fullBlk g | .fullCount g | .store g => g.type.isFull = true ∧ g.verify cf.crypto ≠ .panic
  | .storeBl g | .storeNote g => g.type.isFull = true
  | .sendPeers _ | .sendOwner _ | .fullNote | .save | .wipe => True
  | _ => False

theorem fatal_new {cf : GConf L} (A : L.AggChecks) (clk : Clock) (s : GState) {f : Frame} (hf : FatalFrame cf f)
    {new : List Frame} (h : (stepFrame cf clk s f).2 = some new) : ∀ f' ∈ new, FatalFrame cf f' := by
  have aft : ∀ (g : GossipObj) (b : Bool), g.type.isFull = true → ∀ f' ∈ afterStore g b, FatalFrame cf f' := by
    intro g b hg f' hf'
    unfold afterStore at hf'
    cases ht : g.type <;> rw [ht] at hf' hg <;> simp [GType.isFull] at hg <;> simp at hf' <;>
      (rcases hf' with rfl | rfl <;> trivial)
  cases f with
  | signBlk g =>
    simp only [stepFrame, Option.some.injEq] at h; subst h
    split
    · simp
    · simpa [FatalFrame] using hf
  | sign g =>
    simp only [stepFrame, signStatement] at h
    cases hg : generateFRAG cf g with
    | none => rw [hg] at h; cases h
    | some q =>
      rw [hg] at h
      simp only [Option.map_some, Option.some.injEq] at h
      subst h
      intro f' hf'
      simp only [List.mem_singleton] at hf'
      subst hf'
      left
      rw [generateFRAG_type hg]
      have hi : g.type.isInit = true := hf
      cases hot : g.type <;> simp_all [GType.isInit, GType.isFrag]
  | handle g =>
    simp only [stepFrame, Option.some.injEq] at h; subst h
    split
    · simp
    · simpa [FatalFrame] using hf
  | blk g =>
    simp only [stepFrame, Option.some.injEq] at h; subst h
    split
    · simp
    · have hf' : g.type.isFrag = true ∨ (g.type.isFull = true ∧ g.verify cf.crypto ≠ .panic) := hf
      cases ht : g.type <;> simp_all [FatalFrame, GType.isFrag, GType.isFull]
  | fragFull g =>
    simp only [stepFrame, Option.some.injEq] at h; subst h
    split
    · simp
    · simpa [FatalFrame] using hf
  | fragStore g =>
    simp only [stepFrame, Option.some.injEq] at h; subst h
    intro f' hf'
    rcases List.mem_append.1 hf' with h1 | h1 <;> split at h1 <;> simp at h1
    · subst h1; exact hf
    · subst h1; trivial
  | fragGen g =>
    simp only [stepFrame] at h
    cases hg : generateFULL cf clk (getObjectList s g.getID g.type) g.getTargetType with
    | none => rw [hg] at h; cases h
    | some o =>
      rw [hg] at h
      simp only [Option.some.injEq] at h
      subst h
      intro f' hf'
      simp only [List.mem_singleton] at hf'
      subst hf'
      have hfu : g.getTargetType.isFull = true := getTargetType_isFull hf
      exact .inr ⟨by rw [generateFULL_type hg]; exact hfu, generateFULL_noPanic A hfu hg⟩
  | fullBlk g =>
    simp only [stepFrame, Option.some.injEq] at h; subst h
    split
    · simp
    · simpa [FatalFrame] using hf
  | fullCount g =>
    simp only [stepFrame, Option.some.injEq] at h; subst h
    split
    · simpa [FatalFrame] using hf
    · intro f' hf'; simp at hf'; subst hf'; trivial
  | store g =>
    simp only [stepFrame] at h
    have hf' : g.type.isFull = true ∧ g.verify cf.crypto ≠ .panic := hf
    split at h
    · cases h
    · simp at h; subst h; exact aft _ _ hf'.1
    · split at h
      · simp at h; subst h; exact aft _ _ hf'.1
      · simp at h; subst h
        intro f' hm
        simp at hm
        subst hm
        exact hf'.1
  | storeBl g =>
    simp only [stepFrame, Option.some.injEq] at h; subst h
    simpa [FatalFrame] using hf
  | storeNote g =>
    simp only [stepFrame, Option.some.injEq] at h; subst h
    exact aft _ _ hf
  | sendPeers g => simp only [stepFrame, Option.some.injEq] at h; subst h; simp
  | sendOwner g => simp only [stepFrame, Option.some.injEq] at h; subst h; simp
  | fullNote => simp only [stepFrame, Option.some.injEq] at h; subst h; simp
  | save => simp only [stepFrame, Option.some.injEq] at h; subst h; simp
  | wipe => simp only [stepFrame, Option.some.injEq] at h; subst h; simp
  | _ => exact absurd hf (by simp [FatalFrame])

/-- The one program point of such a goroutine that can panic. -/
theorem fatal_panic {cf : GConf L} (hb : cf.crypto.thresholdScheme = go!"bls") (clk : Clock) (s : GState) {f : Frame}
    (hf : FatalFrame cf f) (h : (stepFrame cf clk s f).2 = none) :
    ∃ g, f = .fragGen g ∧ generateFULL cf clk (getObjectList s g.getID g.type) g.getTargetType = none := by
  cases f with
  | sign g =>
    obtain ⟨q, hq⟩ := generateFRAG_some hb g
    simp [stepFrame, signStatement, hq] at h
  | store g =>
    have hf' : g.type.isFull = true ∧ g.verify cf.crypto ≠ .panic := hf
    simp only [stepFrame] at h
    split at h
    · rename_i hp; exact absurd hp hf'.2
    · cases h
    · split at h <;> cases h
  | fragGen g =>
    refine ⟨g, rfl, ?_⟩
    cases hg : generateFULL cf clk (getObjectList s g.getID g.type) g.getTargetType with
    | none => rfl
    | some o => simp [stepFrame, hg] at h
  | recv n g => exact absurd hf (by simp [FatalFrame])
  | fragStore g => simp [stepFrame] at h
  | _ => simp [stepFrame] at h

/-- In the schedule `h`, the wipe is executed while another goroutine has decided to aggregate and has not yet read the
fragments. -/
def WipeOvertakes (cf : GConf L) (h : List (Clock × CEvent)) : Prop :=
  ∃ h1 clk i h2, h = h1 ++ (clk, .run i) :: h2 ∧
    (∃ t, (crun cf CState.init h1).threads[i]? = some t ∧ t.frames.head? = some .wipe) ∧
    ∃ t ∈ (crun cf CState.init h1).threads, ∃ g, .fragGen g ∈ t.frames

/-- The goroutines on which a panic is fatal execute what `FatalFrame` says, and whoever is about to aggregate finds
enough fragments. -/
structure SurvInv (cf : GConf L) (c : CState) : Prop where
  alive : c.g.crashed = false
  fatal : ∀ t ∈ c.threads, t.fatal = true → ∀ f ∈ t.frames, FatalFrame cf f
  enough : ∀ t ∈ c.threads, ∀ g, .fragGen g ∈ t.frames →
    credit cf g.getID c.g = 0 ∧ c.g.storage.fragList g.getID.type g.getID ≠ []

theorem credit_mono' {cf : GConf L} {k : GossipID} {s s' : GState}
    (h : (s.storage.fragList k.type k).length ≤ (s'.storage.fragList k.type k).length)
    (h0 : credit cf k s = 0 ∧ s.storage.fragList k.type k ≠ []) :
    credit cf k s' = 0 ∧ s'.storage.fragList k.type k ≠ [] := by
  obtain ⟨h1, h2⟩ := h0
  have hpos : 0 < (s.storage.fragList k.type k).length := List.length_pos_iff.2 h2
  refine ⟨?_, fun e => by rw [e] at h; simp only [List.length_nil] at h; omega⟩
  unfold credit at h1 ⊢
  split at h1
  · rw [if_pos (by omega)]
  · cases h1

theorem SurvInv.spawn {cf : GConf L} {c : CState} (I : SurvInv cf c) (g : GState) (hg : g.storage = c.g.storage)
    (hcr : g.crashed = c.g.crashed) (t : Thread) (ht : t.fatal = true → ∀ f ∈ t.frames, FatalFrame cf f)
    (hn : ∀ q, Frame.fragGen q ∉ t.frames) : SurvInv cf ⟨g, c.threads ++ [t]⟩ := by
  refine ⟨hcr.trans I.alive, ?_, ?_⟩
  · intro t' ht'
    rcases List.mem_append.1 ht' with h | h
    · exact I.fatal t' h
    · simp at h; subst h; exact ht
  · intro t' ht' q hq
    rcases List.mem_append.1 ht' with h | h
    · have := I.enough t' h q hq
      unfold credit at this ⊢
      simp only [hg]
      exact this
    · simp at h; subst h; exact absurd hq (hn q)

/-- C150 under every schedule, in the model of atomic actions: with the bls scheme, messages of any content, requests and
timers in any interleaving end the process only in this way: a periodic wipe is executed between the moment a goroutine
has decided to aggregate and the moment it reads the fragments. Missing: that this cannot happen, see
`C150_violated_one_fragment`; Go's own check for unlocked map accesses is C123 and C124. -/
theorem C150_only_by_overtaking_partial (A : L.AggChecks) (cf : GConf L) (hb : cf.crypto.thresholdScheme = go!"bls")
    (h : List (Clock × CEvent)) (hc : (crun cf CState.init h).g.crashed = true) : WipeOvertakes cf h := by
  have key : WipeOvertakes cf h ∨ SurvInv cf (crun cf CState.init h) := by
    clear hc
    induction h using snoc_ind with
    | h0 => right; exact ⟨rfl, by simp [crun, CState.init], by simp [crun, CState.init]⟩
    | h1 h e ih =>
      rcases ih with ⟨h1, clk, i, h2, e1, e2, e3⟩ | I
      · left; exact ⟨h1, clk, i, h2 ++ [e], by simp [e1], e2, e3⟩
      · obtain ⟨hist, _, M, W⟩ := CReach.main (cf := cf) ⟨h, rfl⟩
        have hrun : crun cf CState.init (h ++ [e]) = cstep cf (crun cf CState.init h) e := by
          simp [crun, List.foldl_append]
        rw [hrun]
        have hover : ∀ clk i t, e = (clk, .run i) → (crun cf CState.init h).threads[i]? = some t →
            t.frames.head? = some .wipe → ∀ t' ∈ (crun cf CState.init h).threads, ∀ g, .fragGen g ∈ t'.frames →
            WipeOvertakes cf (h ++ [e]) := by
          intro clk i t he ht hw t' ht' g hg
          subst he
          exact ⟨h, clk, i, [], rfl, ⟨t, ht, hw⟩, t', ht', g, hg⟩
        generalize crun cf CState.init h = c at *
        obtain ⟨clk, ev⟩ := e
        unfold cstep
        rw [I.alive]
        simp only [Bool.false_eq_true, if_false]
        cases ev with
        | recv n o => right; exact I.spawn c.g rfl rfl _ (by simp) (by simp)
        | notify n x => right; exact I.spawn c.g rfl rfl _ (by simp) (by simp)
        | request n x => right; exact I.spawn c.g rfl rfl _ (by simp) (by simp)
        | periodic => right; exact I.spawn c.g rfl rfl _ (by simp [FatalFrame]) (by simp)
        | fire i =>
          right
          simp only
          cases ht : c.g.timers[i]? with
          | none => exact I
          | some o =>
            have hi : o.type.isInit = true := by
              rcases (M.timers o (List.mem_of_getElem? ht)).1 with e | e <;> simp [e, GType.isInit]
            exact I.spawn { c.g with timers := c.g.timers.eraseIdx i } rfl rfl _ (by simpa [FatalFrame] using hi) (by simp)
        | run i =>
          simp only
          cases ht : c.threads[i]? with
          | none => right; exact I
          | some t =>
            have htm := List.mem_of_getElem? ht
            simp only
            unfold stepThread
            cases hfr : t.frames with
            | nil =>
              right
              simp only
              have : c.threads.set i t = c.threads := by
                apply List.ext_getElem?
                intro j
                rw [List.getElem?_set]
                split
                · rename_i e; subst e
                  obtain ⟨hlt, he⟩ := List.getElem?_eq_some_iff.1 ht
                  simp [hlt, he]
                · rfl
              rw [this]
              exact I
            | cons f fs =>
              simp only
              by_cases hw : f = .wipe
              · subst hw
                by_cases hp : ∃ t' ∈ c.threads, ∃ g, .fragGen g ∈ t'.frames
                · obtain ⟨t', h1, g, h2⟩ := hp
                  left; exact hover clk i t rfl ht (by rw [hfr]; rfl) t' h1 g h2
                · right
                  simp only [stepFrame, List.nil_append]
                  refine ⟨I.alive, ?_, ?_⟩
                  · intro t' ht'
                    rcases List.mem_or_eq_of_mem_set ht' with h1 | h1
                    · exact I.fatal t' h1
                    · subst h1
                      intro hfa f' hf'
                      exact I.fatal t htm hfa f' (by rw [hfr]; exact List.mem_cons_of_mem _ hf')
                  · intro t' ht' g hg
                    rcases List.mem_or_eq_of_mem_set ht' with h1 | h1
                    · exact absurd ⟨t', h1, g, hg⟩ hp
                    · subst h1
                      exact absurd ⟨t, htm, g, by rw [hfr]; exact List.mem_cons_of_mem _ hg⟩ hp
              · right
                have hwt : f.wt := (W t htm f (by rw [hfr]; simp)).1
                have hcrs := crashed_stepFrame cf clk c.g f
                have hpot := fun k => frame_potential cf k clk c.g f hwt hw
                rcases hst : stepFrame cf clk c.g f with ⟨s', new⟩
                rw [hst] at hcrs
                simp only [hst] at hpot
                simp only at hcrs
                have hold : ∀ t' ∈ c.threads, ∀ g, .fragGen g ∈ t'.frames →
                    credit cf g.getID s' = 0 ∧ s'.storage.fragList g.getID.type g.getID ≠ [] :=
                  fun t' ht' g hg => credit_mono' (hpot g.getID).2.1 (I.enough t' ht' g hg)
                cases new with
                | some new =>
                  refine ⟨hcrs.trans I.alive, ?_, ?_⟩
                  · intro t' ht'
                    rcases List.mem_or_eq_of_mem_set ht' with h1 | h1
                    · exact I.fatal t' h1
                    · subst h1
                      intro hfa f' hf'
                      rcases List.mem_append.1 hf' with h2 | h2
                      · exact fatal_new A clk c.g (I.fatal t htm hfa f (by rw [hfr]; simp)) (by rw [hst]) f' h2
                      · exact I.fatal t htm hfa f' (by rw [hfr]; exact List.mem_cons_of_mem _ h2)
                  · intro t' ht' g hg
                    rcases List.mem_or_eq_of_mem_set ht' with h1 | h1
                    · exact hold t' h1 g hg
                    · subst h1
                      rcases List.mem_append.1 hg with h2 | h2
                      · refine (hpot g.getID).2.2.1 ?_
                        rw [Option.getD_some, List.countP_pos_iff]
                        exact ⟨_, h2, by simp [Frame.isGen]⟩
                      · exact hold t htm g (by rw [hfr]; exact List.mem_cons_of_mem _ h2)
                | none =>
                  have hnf : t.fatal = false := by
                    cases hfa : t.fatal with
                    | false => rfl
                    | true =>
                      exfalso
                      obtain ⟨g, rfl, hg⟩ := fatal_panic hb clk c.g (I.fatal t htm hfa f (by rw [hfr]; simp)) (by rw [hst])
                      obtain ⟨h1, h2⟩ := I.enough t htm g (by rw [hfr]; simp)
                      have h3 : cf.crypto.threshold ≤ ((c.g.storage.fragList g.type g.getID).length : Int) := by
                        have e : g.getID.type = g.type := rfl
                        unfold credit at h1
                        rw [e] at h1
                        split at h1
                        · assumption
                        · cases h1
                      obtain ⟨o, ho⟩ := generateFULL_some cf clk hb (c.g.storage.fragList g.type g.getID) g.getTargetType h2 h3
                      simp only [getObjectList] at hg
                      rw [ho] at hg
                      cases hg
                  simp only [hnf, Bool.false_eq_true, if_false]
                  refine ⟨hcrs.trans I.alive, ?_, ?_⟩
                  · intro t' ht'
                    rcases List.mem_or_eq_of_mem_set ht' with h1 | h1
                    · exact I.fatal t' h1
                    · subst h1; simp
                  · intro t' ht' g hg
                    rcases List.mem_or_eq_of_mem_set ht' with h1 | h1
                    · exact hold t' h1 g hg
                    · subst h1; simp at hg
  rcases key with h1 | h1
  · exact h1
  · rw [h1.alive] at hc; cases hc

/-- A fragment that nobody signed. -/
def Ref.junkFrag : GossipObj := { Ref.frag (go!"G2") with sig := ⟨go!"junk", []⟩ }

/-- The gossiper G1 is sent a tree head and a fragment that nobody signed. The timer of the tree head fires and its
goroutine is about to aggregate when the periodic task runs. -/
def Ref.junkCrash : List (Clock × CEvent) :=
  [(Ref.clk, .recv 10 Ref.sth)] ++ runs Ref.clk 0 20 ++ [(Ref.clk, .recv 10 Ref.junkFrag)] ++ runs Ref.clk 1 20 ++
  [(Ref.clk, .fire 0)] ++ runs Ref.clk 2 6 ++ [(Ref.clk, .periodic)] ++ runs Ref.clk 3 2

/-- C150 fails: one fragment without a valid signature, sent before the timer of the tree head fires, makes the timer's
goroutine aggregate (threshold 2); the wipe at the end of the period comes first, and the process ends. The schedule is
one in which the wipe overtakes the aggregation. -/
theorem C150_violated_one_fragment : Ref.junkFrag.verify Ref.gconf.crypto ≠ .ok ∧
    (crun Ref.gconf CState.init Ref.junkCrash).g.crashed = false ∧
    (crun Ref.gconf CState.init (Ref.junkCrash ++ runs Ref.clk 2 1)).g.crashed = true ∧
    WipeOvertakes Ref.gconf (Ref.junkCrash ++ runs Ref.clk 2 1) := by
  refine ⟨by decide +kernel, by decide +kernel, by decide +kernel, ?_⟩
  refine ⟨Ref.junkCrash.take 51, Ref.clk, 3, runs Ref.clk 2 1, by decide +kernel, ?_, ?_⟩
  · have : ((crun Ref.gconf CState.init (Ref.junkCrash.take 51)).threads[3]?).bind (·.frames.head?) = some .wipe := by
      decide +kernel
    cases ht : (crun Ref.gconf CState.init (Ref.junkCrash.take 51)).threads[3]? with
    | none => rw [ht] at this; cases this
    | some t => rw [ht] at this; exact ⟨t, rfl, this⟩
  · have : ∃ t ∈ (crun Ref.gconf CState.init (Ref.junkCrash.take 51)).threads, ∃ f ∈ t.frames,
        (match f with | .fragGen _ => true | _ => false) = true := by decide +kernel
    obtain ⟨t, h1, f, h2, h3⟩ := this
    cases f <;> simp at h3
    exact ⟨t, h1, _, h2⟩

end CTng
