import Verif.Props.GossiperThreshold
/- C22, continued: fragments that nobody signed count towards the threshold. -/
set_option autoImplicit false

namespace CTng
variable {L : Lib}

theorem fromStr_junk {str : Str} (h : L.jsonStrMap str = none) :
    (SigFragment.fromStr L str).1 = { sign := some L.blsZeroSig, id := [] } := by
  unfold SigFragment.fromStr; rw [h]

/-- One genuine fragment after `n` undecodable ones is aggregated into a FULL object that verifies. -/
theorem generateFULL_junk {cf : GConf L} {pub : L.BlsSec → L.BlsPub} (J : L.JsonLaws) (B : L.BlsLaws pub)
    (hz : ∀ k n m, L.blsFastAggVerify (some (L.blsAggregate (List.replicate n L.blsZeroSig ++ [L.blsSign k m])))
      (List.replicate n L.blsZeroPub ++ [pub k]) m = .ok)
    (hb : cf.crypto.thresholdScheme = go!"bls") (hid : cf.crypto.thresholdPublicMap.get [] = none) (clk : Clock)
    (pay : Pay3) (hp : pay.p0 ≠ []) (gs : List GossipObj) (hgs : ∀ g ∈ gs, L.jsonStrMap g.sig.s0 = none ∧ g.payload = pay)
    (d : GossipObj) (hd : GenuineFrag cf.crypto pub pay d) (hl : cf.crypto.threshold ≤ (gs.length : Int) + 1)
    (t : GType) (ht : t.isFull = true) :
    ∃ o, generateFULL cf clk (gs ++ [d]) t = some o ∧ o.verify cf.crypto = .ok ∧ o.payload = pay ∧ o.type = t := by
  obtain ⟨a, hr, hs, he⟩ := hd.decode J B
  rw [thresholdSign_eq a hr.1] at he
  have hmap : (gs ++ [d]).map (fun g => (SigFragment.fromStr L g.sig.s0).1) =
      List.replicate gs.length { sign := some L.blsZeroSig, id := [] } ++
        [{ sign := some (L.blsSign a.thresholdSecretKey pay.cat), id := a.selfID }] := by
    rw [List.map_append, List.map_cons, List.map_nil, he]
    congr 1
    clear hl
    induction gs with
    | nil => rfl
    | cons g gs ih =>
      rw [List.map_cons, fromStr_junk (hgs g (by simp)).1, ih fun g hg => hgs g (by simp [hg])]
      rfl
  have hmm : ∀ n (x : SigFragment L) σ, x.sign = some σ →
      (List.replicate n ({ sign := some L.blsZeroSig, id := [] } : SigFragment L) ++ [x]).mapM (fun f => f.sign) =
        some (List.replicate n L.blsZeroSig ++ [σ]) := by
    intro n x σ hx
    induction n with
    | zero => simp [hx]
    | succ n ih =>
      rw [List.replicate_succ, List.cons_append, List.mapM_cons, ih, List.replicate_succ]
      rfl
  have hids : (List.replicate gs.length ({ sign := some L.blsZeroSig, id := [] } : SigFragment L) ++
      [({ sign := some (L.blsSign a.thresholdSecretKey pay.cat), id := a.selfID } : SigFragment L)]).map (fun f => f.id) =
      List.replicate gs.length [] ++ [a.selfID] := by simp
  generalize hσ : L.blsAggregate (List.replicate gs.length L.blsZeroSig ++ [L.blsSign a.thresholdSecretKey pay.cat]) = σ
  generalize hI : sortStr (List.replicate gs.length [] ++ [a.selfID]) = ids
  have hperm : ids.Perm (List.replicate gs.length [] ++ [a.selfID]) := by rw [← hI]; exact sortStr_perm _
  have hagg : cf.crypto.thresholdAggregate ((gs ++ [d]).map fun g => (SigFragment.fromStr L g.sig.s0).1) =
      .ok { ids := ids, sign := some σ } := by
    unfold CryptoConfig.thresholdAggregate thresholdAggregate
    rw [if_pos hb, hmap, if_neg (by simp; omega), hmm _ _ _ rfl, hids]
    simp only [hσ, hI]
  obtain ⟨str, hstr⟩ : ∃ str, ThresholdSig.toStr L ⟨ids, some σ⟩ = some str := ⟨_, rfl⟩
  have hsafe : ∀ i ∈ ids, Safe i := by
    intro i hi
    rcases List.mem_append.1 (hperm.mem_iff.1 hi) with h | h
    · rw [(List.mem_replicate.1 h).2]; intro c hc; cases hc
    · simp at h; rw [h]; exact hs
  have hrt := thresholdSig_roundtrip J pub B σ ids hsafe str hstr
  have hhead : ∃ g0 rest, gs ++ [d] = g0 :: rest ∧ g0.payload = pay := by
    cases gs with
    | nil => exact ⟨d, [], rfl, hd.1⟩
    | cons g gs => exact ⟨g, gs ++ [d], rfl, (hgs g (by simp)).2⟩
  obtain ⟨g0, rest, hcons, hpay⟩ := hhead
  refine ⟨{ application := CTNG_APPLICATION, type := t, period := clk.period, signer := [],
            signers := (g0 :: rest).map (·.signer), sig := ⟨str, []⟩, timestamp := clk.timestamp,
            cryptoScheme := go!"bls", payload := g0.payload },
    by unfold generateFULL; rw [hagg, hcons]; simp only [hstr], ?_, hpay, rfl⟩
  rw [full_verify_iff _ _ ht]
  refine ⟨by simp only [hpay]; exact hp, ?_, hb, ?_⟩
  · simp only [ThresholdSig.toStr, Option.map_some, Option.some.injEq] at hstr
    rw [← hstr]; simp
  · simp only [hrt, hpay]
    have hpm : (ids.map fun i => (cf.crypto.thresholdPublicMap.get i).getD L.blsZeroPub).Perm
        (List.replicate gs.length L.blsZeroPub ++ [pub a.thresholdSecretKey]) := by
      refine (hperm.map _).trans (List.Perm.of_eq ?_)
      simp [hid, hr.2]
    have := hz a.thresholdSecretKey gs.length pay.cat
    rw [hσ, ← B.ver_perm _ _ _ _ hpm] at this
    exact this

/-- A gossiper without the FULL object keeps fragments with different signatures up to one less than Threshold. -/
theorem collect_frags (cf : GConf L) (clk : Clock) (k : GossipID) (x : Str) (l : List GossipObj) :
    ∀ (s : GState) (p : List GossipObj), s.crashed = false → s.blacklist.has x = false → s.storage.sthFull = .empty →
      s.storage.fragList .STH_FRAG k = p → (∀ g ∈ l, g.type = .STH_FRAG ∧ g.getID = k ∧ g.payload.p0 = x) →
      ((p ++ l).map (·.sig)).Nodup → ((p ++ l).length : Int) < cf.crypto.threshold →
      let s' := grun cf s (l.map fun d => (clk, .recv 0 d))
      s'.crashed = false ∧ s'.blacklist.has x = false ∧ s'.storage.sthFull = .empty ∧
        s'.storage.fragList .STH_FRAG k = p ++ l := by
  induction l with
  | nil => intro s p h1 h2 h3 h4 _ _ _; exact ⟨h1, h2, h3, by simpa [grun] using h4⟩
  | cons g l ih =>
    intro s p h1 h2 h3 h4 hl hn hT
    obtain ⟨ht, hk, hx⟩ := hl g (by simp)
    have hf : g.type.isFrag = true := by rw [ht]; rfl
    have e : gstep cf s (clk, .recv 0 g) =
        sendToGossipers cf { s with storage := s.storage.appendFrag .STH_FRAG k g } g := by
      have e1 : gstep cf s (clk, .recv 0 g) = (handle cf clk { s with trafficReceived := s.trafficReceived + 0 } g).1 := by
        unfold gstep gossipObjectHandler
        rw [if_neg (by simp [h1])]
        simp [ht]
      have e2 : ({ s with trafficReceived := s.trafficReceived + 0 } : GState) = s := by rw [Int.add_zero]
      rw [e1, e2, handle_frag cf clk hf]
      have hd : dupCheck s g = false := by
        cases hd : dupCheck s g with
        | false => rfl
        | true =>
          exfalso
          obtain ⟨v, hv, hsig⟩ := (dupCheck_frag hf).1 hd
          rw [ht, hk, h4] at hv
          rw [List.map_append, List.nodup_append] at hn
          exact hn.2.2 v.sig (List.mem_map.2 ⟨v, hv, rfl⟩) g.sig (by simp) hsig
      have hb : inBlacklist s g.payload.p0 = false := by rw [hx]; exact h2
      rw [hd, hb]
      simp only [Bool.false_eq_true, if_false]
      unfold handleFrag
      have hc : itemCount s g.getID (fullTypeOf g.type) = 0 := by
        rw [ht]; simp [fullTypeOf, itemCount, Storage.objs, h3]
      rw [if_neg (by omega), readAndStore_frag cf hf]
      rw [ht, hk, h4]
      simp only [List.length_append, List.length_cons] at hT
      rw [if_pos (by omega)]
      simp only
      rw [if_neg (by omega)]
      simp only
      rw [if_pos (by omega)]
    have hrun : grun cf s ((g :: l).map fun d => (clk, .recv 0 d)) =
        grun cf (gstep cf s (clk, .recv 0 g)) (l.map fun d => (clk, .recv 0 d)) := rfl
    intro s'
    have hs' : s' = grun cf (gstep cf s (clk, .recv 0 g)) (l.map fun d => (clk, .recv 0 d)) := hrun
    rw [hs', e]
    have := ih (sendToGossipers cf { s with storage := s.storage.appendFrag .STH_FRAG k g } g) (p ++ [g])
      (by simp [h1]) (by simpa using h2) (by simpa [Storage.appendFrag] using h3)
      (by rw [storage_sendToGossipers, Storage.fragList_appendFrag_same _ _ _ _ rfl, h4])
      (fun g' hg' => hl g' (by simp [hg'])) (by simpa using hn) (by simpa using hT)
    simpa using this

/-- C22 does not hold, without a single key: somebody who has seen one genuine fragment `d` (or waits for the gossiper's
own) posts Threshold - 1 fragments with texts that are not even JSON. A fresh gossiper keeps them, decodes each to the
zero signature of the empty id, and aggregates them with `d` into an STH_FULL object that verifies, which it holds and
passes to its owner. Conditions on the library: the texts do not decode; and adding zero points to a sum of signatures
and of keys leaves a verifying signature verifying (herumi/bls sums points). -/
theorem C22_violated_without_keys (J : L.JsonLaws) (cf : GConf L) (pub : L.BlsSec → L.BlsPub) (B : L.BlsLaws pub)
    (hz : ∀ k n m, L.blsFastAggVerify (some (L.blsAggregate (List.replicate n L.blsZeroSig ++ [L.blsSign k m])))
      (List.replicate n L.blsZeroPub ++ [pub k]) m = .ok)
    (hbls : cf.crypto.thresholdScheme = go!"bls") (hT : 1 ≤ cf.crypto.threshold)
    (hid : cf.crypto.thresholdPublicMap.get [] = none) (clk : Clock)
    (junk : Nat → Str) (hinj : ∀ i j, junk i = junk j → i = j) (hj : ∀ i, L.jsonStrMap (junk i) = none)
    (d : GossipObj) (ht : d.type = .STH_FRAG) (hp : d.payload.p0 ≠ []) (hd : GenuineFrag cf.crypto pub d.payload d) :
    let ds := (List.range (cf.crypto.threshold.toNat - 1)).map fun i => { d with sig := ⟨junk i, []⟩ }
    let s := grun cf GState.init ((ds ++ [d]).map fun g => (clk, .recv 0 g))
    s.storage.fragList .STH_FRAG d.getID = ds ++ [d] ∧
    ∃ k o, HeldAs s.storage k o .STH_FULL ∧ o.verify cf.crypto = .ok ∧ o.payload = d.payload ∧ .owner o ∈ s.out := by
  intro ds s
  have hdl : (ds.length : Int) + 1 = cf.crypto.threshold := by simp [ds]; omega
  have hds : ∀ g ∈ ds, g.type = .STH_FRAG ∧ g.getID = d.getID ∧ g.payload = d.payload ∧ L.jsonStrMap g.sig.s0 = none := by
    intro g hg
    obtain ⟨i, _, rfl⟩ := List.mem_map.1 hg
    exact ⟨ht, rfl, rfl, hj i⟩
  obtain ⟨hc, hb, hfull, hlist⟩ := collect_frags cf clk d.getID d.payload.p0 ds GState.init [] rfl rfl rfl
    (by simp [GState.init]) (fun g hg => by obtain ⟨a, b, c, _⟩ := hds g hg; exact ⟨a, b, by rw [c]⟩)
    (by
      rw [List.nil_append, List.map_map]
      refine List.Pairwise.map _ ?_ List.nodup_range
      intro i j hij e
      simp only [Function.comp, Sig2.mk.injEq, and_true] at e
      exact hij (hinj i j e))
    (by simp only [List.nil_append]; omega)
  rw [List.nil_append] at hlist
  have hs : s = gstep cf (grun cf GState.init (ds.map fun g => (clk, .recv 0 g))) (clk, .recv 0 d) := by
    simp [s, grun, List.foldl_append]
  have hreach : GReach cf s := ⟨_, rfl⟩
  generalize grun cf GState.init (ds.map fun g => (clk, .recv 0 g)) = s0 at *
  have hf : d.type.isFrag = true := by rw [ht]; rfl
  obtain ⟨o, ho, hv, hpay, hot⟩ := generateFULL_junk J B hz hbls hid clk d.payload hp ds
    (fun g hg => ⟨(hds g hg).2.2.2, (hds g hg).2.2.1⟩) d hd (by omega) .STH_FULL rfl
  have hdup : dupCheck s0 d = false := by
    cases hdu : dupCheck s0 d with
    | false => rfl
    | true =>
      exfalso
      obtain ⟨v, hvm, hsig⟩ := (dupCheck_frag hf).1 hdu
      rw [ht, hlist] at hvm
      have h1 := (hds v hvm).2.2.2
      obtain ⟨_, a, ra, sa, ea⟩ := hd
      rw [thresholdSign_eq a ra.1] at ea
      simp only [SigFragment.toStr, Option.map_some, Option.some.injEq] at ea
      obtain ⟨m, hm, _⟩ := J.two (go!"sign") (L.blsSerHex (L.blsSign a.thresholdSecretKey d.payload.cat)) (go!"id") a.selfID
        (by unfold Safe; decide) (B.hex_safe _) (by unfold Safe; decide) sa (by decide)
      rw [hsig, ← ea] at h1
      have e : (go!"{\"sign\":\"" ++ L.blsSerHex (L.blsSign a.thresholdSecretKey d.payload.cat) ++ go!"\",\"id\":\"" ++
          a.selfID ++ go!"\"}") = (go!"{\"" ++ go!"sign" ++ go!"\":\"" ++ L.blsSerHex (L.blsSign a.thresholdSecretKey d.payload.cat) ++
          go!"\",\"" ++ go!"id" ++ go!"\":\"" ++ a.selfID ++ go!"\"}") := by simp
      rw [e, hm] at h1
      cases h1
  have e1 : gstep cf s0 (clk, .recv 0 d) = (handle cf clk s0 d).1 := by
    unfold gstep gossipObjectHandler
    rw [if_neg (by simp [hc])]
    simp [ht]
  have htt : d.getTargetType = .STH_FULL := by unfold GossipObj.getTargetType; rw [ht]
  rw [e1, handle_frag cf clk hf, hdup] at hs
  have hb' : inBlacklist s0 d.payload.p0 = false := hb
  rw [hb'] at hs
  simp only [Bool.false_eq_true, if_false] at hs
  unfold handleFrag at hs
  have hcnt : itemCount s0 d.getID (fullTypeOf d.type) = 0 := by
    rw [ht]; simp [fullTypeOf, itemCount, Storage.objs, hfull]
  rw [if_neg (by omega), readAndStore_frag cf hf] at hs
  rw [ht, hlist, if_pos (by omega)] at hs
  simp only at hs
  rw [if_pos (by omega)] at hs
  simp only [getObjectList, Storage.fragList_appendFrag_same s0.storage .STH_FRAG d.getID d rfl, hlist, htt, ho] at hs
  generalize hs1 : ({ s0 with storage := s0.storage.appendFrag .STH_FRAG d.getID d } : GState).emit
    [.generatedFull d.getID o] = s1 at hs
  have h1b : s1.blacklist.has o.payload.p0 = false := by rw [← hs1, hpay]; exact hb
  have h1f : s1.storage.sthFull = .empty := by rw [← hs1]; simpa [GState.emit, Storage.appendFrag] using hfull
  have h1l : s1.storage.fragList .STH_FRAG d.getID = ds ++ [d] := by
    rw [← hs1]; simp only [GState.emit]; rw [Storage.fragList_appendFrag_same _ _ _ _ rfl, hlist]
  have h1c : itemCount s1 o.getID o.type = 0 := by rw [hot]; simp [itemCount, Storage.objs, h1f]
  have hh : handle cf clk s1 o = (noteConverge cf clk (sendToMonitor (storedState cf clk s1 o) o), false) := by
    have hd1 : dupCheck s1 o = false := by
      cases hd1 : dupCheck s1 o with
      | false => rfl
      | true =>
        obtain ⟨o', h', _⟩ := (dupCheck_obj (by rw [hot]; rfl)).1 hd1
        rw [hot] at h'
        simp [Storage.objs, h1f] at h'
    rw [handle_full cf clk (by rw [hot]; rfl), hd1]
    have hbb : inBlacklist s1 o.payload.p0 = false := h1b
    rw [hbb]
    simp only [Bool.false_eq_true, if_false]
    unfold handleFull
    rw [hbb, if_pos h1c]
    simp only [Bool.false_eq_true, if_false]
    rcases storeGossipObject_cases cf clk s1 o (by rw [hot]; rfl) hd1 with ⟨h, _⟩ | ⟨⟨e, h⟩, _⟩ | ⟨_, h⟩
    · rw [hv] at h; cases h
    · rw [hv] at h; cases h
    · rw [h]
  rw [hh] at hs
  simp only at hs
  rw [if_pos (by omega)] at hs
  simp only at hs
  have hst : s.storage = s1.storage.putObj .STH_FULL o.getID o := by rw [hs]; simp [hot]
  have hget : (s.storage.objs .STH_FULL).get o.getID = some o := by
    rw [hst]; exact by rw [Storage.objs_putObj_same _ _ _ _ rfl]; simp
  refine ⟨by rw [hst]; simpa using h1l, o.getID, o, heldAs_iff.2 hget, hv, hpay, (hreach.fullsSent _ _ _ rfl hget).2.2.2⟩

/-- In the reference library: the texts `x`, `xx`, ... and one fragment of G2 (threshold 2). -/
example : (∀ k n m, Ref.lib.blsFastAggVerify (some (Ref.lib.blsAggregate (List.replicate n Ref.lib.blsZeroSig ++
      [Ref.lib.blsSign k m]))) (List.replicate n Ref.lib.blsZeroPub ++ [Ref.blsPub k]) m = .ok) ∧
    Ref.gconf.crypto.thresholdPublicMap.get [] = none ∧
    (∀ i, Ref.lib.jsonStrMap (List.replicate (i + 1) 120) = none) ∧
    GenuineFrag Ref.gconf.crypto Ref.blsPub (Ref.frag (go!"G2")).payload (Ref.frag (go!"G2")) := by
  refine ⟨?_, by decide, ?_, ⟨rfl, Ref.conf (go!"G2"), ⟨rfl, rfl⟩, by unfold Safe; decide, by decide +kernel⟩⟩
  · intro (k : Str) n (m : Str)
    have h1 : (List.replicate n (none : Option Str) ++ [some k]).filterMap id = [k] := by
      induction n with
      | zero => rfl
      | succ n ih => simp [List.replicate_succ]
    have h2 : (List.replicate n ([] : List Str) ++ [[Ref.tok k m]]).flatten = [Ref.tok k m] := by
      induction n with
      | zero => rfl
      | succ n ih => simp [List.replicate_succ]
    show (if (List.replicate n (none : Option Str) ++ [some k]).filterMap id = [] then LibRes.fail
      else if sortStr (List.replicate n ([] : List Str) ++ [[Ref.tok k m]]).flatten =
        sortStr (((List.replicate n (none : Option Str) ++ [some k]).filterMap id).map fun k => Ref.tok k m) then .ok else .fail) = .ok
    rw [h1, h2]
    simp
  · intro i
    rfl

end CTng
