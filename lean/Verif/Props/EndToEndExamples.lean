import Verif.Props.EndToEnd
/- A concrete system for C162. -/
set_option autoImplicit false

namespace CTng
open Mon Client

namespace Ref

/-- L1 before and after the end of its period in minute 34. -/
def e2eLs : LoggerState := (loggerRun xlib logConf initLogger [.precert (y 0).raw, .precert (y 1).raw]).getD initLogger
def e2eLs' : LoggerState := (loggerStep xlib logConf e2eLs (.finish at34)).getD initLogger
/-- Its tree head and its proof for certificate 1. -/
def e2eSth : GossipObj := (e2eLs'.sthStorage.get (padInt 2 35)).getD sth
def e2ePoi : POI := (e2eLs'.sentPOIs.map (·.2)).headD ⟨none, [], [], []⟩
/-- C1 after it has received both. -/
def e2eCA : CAState := (caRun xlib caConf caRoot (startRound xlib caConf caRoot (leafKey 0) caInit) [.sth e2eSth, .poi e2ePoi]).getD caInit

theorem some_getD {α : Type} {o : Option α} {d : α} (h : o.isSome = true) : o = some (o.getD d) := by
  cases o with
  | none => cases h
  | some a => rfl

theorem e2eLs_run : loggerRun xlib logConf initLogger [.precert (y 0).raw, .precert (y 1).raw] = some e2eLs := some_getD (by decide +kernel)
theorem e2eLs_step : loggerStep xlib logConf e2eLs (.finish at34) = some e2eLs' := some_getD (by decide +kernel)
theorem e2eCA_run : caRun xlib caConf caRoot (startRound xlib caConf caRoot (leafKey 0) caInit) [.sth e2eSth, .poi e2ePoi] = some e2eCA :=
  some_getD (by decide +kernel)

/-- The event for the goroutines of the second statement. -/
def _root_.CTng.NEvent.second : NEvent → NEvent
  | .node x (c, .run i) => .node x (c, .run (i + if x = go!"G1" then 5 else 4))
  | e => e

/-- The monitor of G1 gets the first and then the second object; the gossipers sign both. -/
def bothOf (o o' : GossipObj) : List SysEvent :=
  headDone clk35 0 o ++ [.mon (go!"G1") (.answer 0 (.obj o')), .arrive 0 clk35] ++
  ((signConc.drop 1).map fun e => .net (e.atClk clk35).second) ++ List.replicate 4 (.arrive 0 clk35)

/-- L1's tree head and C1's revocation of certificate 2. -/
def bothDone : List SysEvent := bothOf e2eSth headRev

attribute [local irreducible] e2eLs e2eLs' e2eSth e2ePoi e2eCA bothDone headRev

/-- Nothing is posted, and nothing answered but objects with `P`. -/
def onlyBoth (P : GossipObj → Prop) [DecidablePred P] (e : SysEvent) : Bool :=
  match e with
  | .net ne => ne.noWipe && !ne.isRecv
  | .mon _ (.answer _ (.obj q)) => decide (P q)
  | _ => true

theorem bothDone_only (P : GossipObj → Prop) [DecidablePred P] (h1 : P e2eSth) (h2 : P headRev) : bothDone.all (onlyBoth P) = true := by
  have h : ∀ o o', P o → P o' → (bothOf o o').all (onlyBoth P) = true := by
    intro o o' h1 h2
    have ha : ((signConc.drop 1).all fun e => (e.atClk clk35).noWipe && !(e.atClk clk35).isRecv) = true := by decide +kernel
    have hb : ((signConc.drop 1).all fun e => (e.atClk clk35).second.noWipe && !(e.atClk clk35).second.isRecv) = true := by decide +kernel
    unfold bothOf headDone
    generalize signConc.drop 1 = l at ha hb ⊢
    simp only [List.all_append, List.all_cons, List.all_nil, List.all_map, Function.comp_def, onlyBoth, List.all_replicate,
      h1, h2, decide_true, ha, hb, Bool.and_true, Bool.true_and]
    simp
  unfold bothDone
  exact h _ _ h1 h2

theorem both_period (R : Round) (o o' : GossipObj) (h : List SysEvent) (hk : R.kind = .sth ∨ R.kind = .rev) (hp0 : R.pay.p0 ≠ [])
    (hpay : o.payload = R.pay) (hper : o.period = R.period) (ho' : o'.type ≠ R.kind.init)
    (honly : ∀ (P : GossipObj → Prop) [DecidablePred P], P o → P o' → h.all (onlyBoth P) = true)
    (hq : quietCheck mesh (sysRun xlib sysConf Sys.init h).net = true)
    (hp : (sysRun xlib sysConf Sys.init h).posts = [])
    (ht : (mesh.ids.all fun x => ((sysRun xlib sysConf Sys.init h).net.node x).g.timers.isEmpty) = true)
    (hb : (mesh.ids.all fun x => !((sysRun xlib sysConf Sys.init h).net.node x).g.blacklist.has R.pay.p0) = true)
    (hd : DistinctFrags mesh R (sysRun xlib sysConf Sys.init h).net) : StatementPeriod xlib sysConf blsPub R [] h where
  net := mesh_net _ hp0
  kind := hk
  keys := fun _ _ => ⟨rfl, rfl, fun _ => rfl, fun _ => rfl⟩
  start := mesh_cstart _
  fresh := by intro x o h; cases h
  noWipe := by
    rintro ev he ne rfl
    have := List.all_eq_true.1 (honly (fun q => q = o ∨ q = o') (.inl rfl) (.inr rfl)) _ he
    simp only [onlyBoth, Bool.and_eq_true] at this
    exact this.1
  answered := by
    intro x i q he hty _ _
    have : q = o ∨ q = o' := of_decide_eq_true (List.all_eq_true.1 (honly (fun q => q = o ∨ q = o') (.inl rfl) (.inr rfl)) _ he)
    rcases this with rfl | rfl
    · exact ⟨hpay, hper⟩
    · exact absurd hty ho'
  posted := by
    intro x c n q he
    have := List.all_eq_true.1 (honly (fun q => q = o ∨ q = o') (.inl rfl) (.inr rfl)) _ he
    simp [onlyBoth, NEvent.isRecv] at this
  ended := ⟨quiet_of_check hq, by
    intro x hx _ g hg
    have := List.all_eq_true.1 ht x hx
    rw [List.isEmpty_iff] at this
    rw [List.nil_append, this] at hg; cases hg⟩
  posts := hp
  distinct := hd
  clean := by
    intro x hx _
    have := List.all_eq_true.1 hb x hx
    simp only [Bool.not_eq_true'] at this
    exact this

/-- What is needed of the state reached. -/
def roundCheck (R : Round) (s : Net) : Bool :=
  (mesh.ids.all fun x => !(s.node x).g.blacklist.has R.pay.p0) &&
  (mesh.ids.all fun x => decide (((s.node x).g.storage.fragList R.kind.frag R.key).map (·.sig)).Nodup)
def bothCheck (s : Sys) : Bool :=
  quietCheck mesh s.net && s.posts.isEmpty && (mesh.ids.all fun x => (s.net.node x).g.timers.isEmpty) &&
  roundCheck ⟨.sth, e2eSth.period, e2eSth.payload⟩ s.net && roundCheck ⟨.rev, headRev.period, headRev.payload⟩ s.net &&
  (s.mon (go!"G2")).all (fun m => (m.conflictPom.get ⟨go!"0", .CON_INIT, e2eSth.payload.p0⟩).isNone &&
    (m.conflictPom.get ⟨go!"0", .CON_INIT, headRev.payload.p0⟩).isNone) &&
  (mesh.ids.all fun x => !(s.net.node x).g.crashed)

theorem bothDone_check : bothCheck (sysRun xlib sysConf Sys.init bothDone) = true := by decide +kernel

theorem both_statement (R : Round) (o o' : GossipObj) (h : List SysEvent) (hk : R.kind = .sth ∨ R.kind = .rev) (hp0 : R.pay.p0 ≠ [])
    (hpay : o.payload = R.pay) (hper : o.period = R.period) (ho' : o'.type ≠ R.kind.init)
    (honly : ∀ (P : GossipObj → Prop) [DecidablePred P], P o → P o' → h.all (onlyBoth P) = true)
    (hc : bothCheck (sysRun xlib sysConf Sys.init h) = true)
    (hr : roundCheck R (sysRun xlib sysConf Sys.init h).net = true) : StatementPeriod xlib sysConf blsPub R [] h := by
  simp only [bothCheck, Bool.and_eq_true, List.isEmpty_iff] at hc
  obtain ⟨⟨⟨⟨⟨⟨h1, h2⟩, h3⟩, _⟩, _⟩, _⟩, _⟩ := hc
  simp only [roundCheck, Bool.and_eq_true] at hr
  exact both_period R o o' h hk hp0 hpay hper ho' honly h1 h2 (by simpa only [List.isEmpty_iff] using h3) hr.1 (distinct_of_check hr.2)

theorem check_rounds {s : Sys} (h : bothCheck s = true) : roundCheck ⟨.sth, e2eSth.period, e2eSth.payload⟩ s.net = true ∧
    roundCheck ⟨.rev, headRev.period, headRev.payload⟩ s.net = true ∧ (∀ x ∈ mesh.ids, s.net.up x) ∧
    ∀ m, s.mon (go!"G2") = some m → m.conflictPom.get ⟨go!"0", .CON_INIT, e2eSth.payload.p0⟩ = none ∧
      m.conflictPom.get ⟨go!"0", .CON_INIT, headRev.payload.p0⟩ = none := by
  simp only [bothCheck, Bool.and_eq_true] at h
  obtain ⟨⟨⟨⟨_, h4⟩, h5⟩, h6⟩, h7⟩ := h
  refine ⟨h4, h5, up_of_all h7, fun m hm => ?_⟩
  simpa only [hm, Option.all_some, Bool.and_eq_true, Option.isNone_iff_eq_none] using h6

theorem bothDone_sth : StatementPeriod xlib sysConf blsPub ⟨.sth, e2eSth.period, e2eSth.payload⟩ [] bothDone :=
  both_statement ⟨.sth, e2eSth.period, e2eSth.payload⟩ e2eSth headRev bothDone (.inl rfl) (by decide +kernel) rfl rfl (by decide +kernel)
    (fun P _ h1 h2 => bothDone_only P h1 h2) bothDone_check (check_rounds bothDone_check).1

theorem bothDone_rev : StatementPeriod xlib sysConf blsPub ⟨.rev, headRev.period, headRev.payload⟩ [] bothDone :=
  both_statement ⟨.rev, headRev.period, headRev.payload⟩ headRev e2eSth bothDone (.inr rfl) (by decide +kernel) rfl rfl (by decide +kernel)
    (fun P _ h1 h2 => bothDone_only P h2 h1) bothDone_check (check_rounds bothDone_check).2.1

theorem bothDone_up (x : Str) (hx : x ∈ mesh.ids) : (sysRun xlib sysConf Sys.init ([] ++ bothDone)).net.up x := by
  rw [List.nil_append]
  exact (check_rounds bothDone_check).2.2.1 x hx

/-- What the gossiper makes of the two statements. -/
def bothSth (x : Str) : GossipObj :=
  { endorse e2eSth .STH_FULL (go!"35") with
    timestamp := clk35.timestamp
    cryptoScheme := go!"bls"
    signers := if x = go!"G1" then [go!"G1", go!"G2"] else [go!"G2", go!"G1"] }
def bothRev (x : Str) : GossipObj :=
  { endorse headRev .REV_FULL (go!"35") with
    timestamp := clk35.timestamp
    cryptoScheme := go!"bls"
    signers := if x = go!"G1" then [go!"G1", go!"G2"] else [go!"G2", go!"G1"] }

attribute [local irreducible] bothSth bothRev

theorem bothDone_hist1 : monHist xlib sysConf (go!"G1") Sys.init bothDone =
    [.query clk35, .answer 0 (.obj e2eSth), .gossip (some e2eSth), .gossip (some (bothSth (go!"G1"))), .answer 0 (.obj headRev),
      .gossip (some headRev), .gossip (some (bothRev (go!"G1")))] := by decide +kernel
theorem bothDone_hist2 : monHist xlib sysConf (go!"G2") Sys.init bothDone =
    [.gossip (some e2eSth), .gossip (some (bothSth (go!"G2"))), .gossip (some headRev), .gossip (some (bothRev (go!"G2")))] := by
  decide +kernel

theorem both_fetch (o : GossipObj) (a b : List MonEvent)
    (hh : monHist xlib sysConf (go!"G1") Sys.init bothDone = a ++ .answer 0 (.obj o) :: b)
    (hs : (monRun xlib (sysConf.mon (go!"G1")) initMonitor a).bind (fun m =>
      (monStep xlib (sysConf.mon (go!"G1")) m (.answer 0 (.obj o))).map fun m' => decide (m'.sent = m.sent ++ [o])) = some true) :
    Fetches xlib sysConf Sys.init bothDone (go!"G1") o := by
  obtain ⟨m, hm, h1⟩ := Option.bind_eq_some_iff.1 hs
  obtain ⟨m', hm', h2⟩ := Option.map_eq_some_iff.1 h1
  exact ⟨a, 0, b, m, m', hh, hm, hm', of_decide_eq_true h2⟩

theorem both_published (R : Round) (m : MonState) (hm : (sysRun xlib sysConf Sys.init bothDone).mon (go!"G2") = some m) (f : GossipObj)
    (hall : ([e2eSth, bothSth (go!"G2"), headRev, bothRev (go!"G2")].all fun q => decide (q.type = R.kind.full → q = f)) = true)
    (hf : f.payload = R.pay ∧ f.period = clk35.period)
    (hc : m.conflictPom.get ⟨go!"0", .CON_INIT, R.pay.p0⟩ = none) :
    PublishedIn (X := xlib) (S := sysConf) R [] bothDone (go!"G2") m clk35 := by
  have hd : ∀ ev ∈ monHist xlib sysConf (go!"G2") Sys.init bothDone, ∀ q : GossipObj, Delivers ev q → q.type = R.kind.full → q = f := by
    rw [bothDone_hist2]
    intro ev he q hd ht
    have hmem : q ∈ [e2eSth, bothSth (go!"G2"), headRev, bothRev (go!"G2")] := by
      generalize e2eSth = a at he ⊢
      generalize bothSth (go!"G2") = b at he ⊢
      generalize headRev = c at he ⊢
      generalize bothRev (go!"G2") = d at he ⊢
      simp only [List.mem_cons, List.not_mem_nil, or_false] at he ⊢
      rcases he with rfl | rfl | rfl | rfl <;> rcases hd with h | ⟨_, h⟩ <;> cases h <;> simp
    exact of_decide_eq_true (List.all_eq_true.1 hall q hmem) ht
  refine ⟨by rw [List.nil_append]; exact hm, fun ev he => absurd he (by simp [monHist]), ?_, ?_, ?_, ?_⟩
  · show noFinish (monHist xlib sysConf (go!"G2") Sys.init bothDone) = true
    rw [bothDone_hist2]; rfl
  · intro ev he q hq ht _ _
    rw [hd ev he q hq ht]; exact hf.2
  · intro ev he q hq ht _ _ _
    rw [hd ev he q hq ht]; exact hf.1
  · exact hc

/-- C162: C1 issues the certificates 1 and 2 and revokes the second, L1 logs them, the monitor of G1 asks both; the clients of the
monitor of G2. -/
example (m : MonState) (hm : (sysRun xlib sysConf Sys.init bothDone).mon (go!"G2") = some m) :
    ∃ f ∈ signAll xlib lib.sha256 caRoot e2eCA, f.subjectKeyId = (y 0).subjectKeyId ∧ f.rawSubject = (y 0).rawSubject ∧
      ∃ m' u, monStep xlib (sysConf.mon (go!"G2")) m (.finish clk35) = some m' ∧
        m'.files.get (periodIO (sysConf.mon (go!"G2")) clk35) = some u ∧
        ∀ (cc : CryptoConfig lib) (st st' : ClientState), SameVerify cc (sysConf.mon (go!"G2")).crypto → st.crvDB.get (go!"C1") = none →
          handleUpdate xlib cc true u st = (.accepted, st') → st'.pomDB.get (go!"L1") = none →
          ((getSRHandDCRV xlib headRev).2.test 1 = false → verifyCTngExt xlib cc st' f = .accept) ∧
          ∀ v us cert, cert.issuerCN = go!"C1" → (getSRHandDCRV xlib headRev).2.test (cert.rid xlib) = true →
            verifyCTngExt xlib cc (runUpdates xlib cc v us st').2 cert ≠ .accept := by
  have hev : ∀ e ∈ [] ++ CAEvent.sth e2eSth :: [] ++ CAEvent.poi e2ePoi :: [], RoundEvent (go!"L1") (y 0).subjectKeyId e2eSth e2ePoi e := by
    have hg : e2eSth.Plain := by
      refine ⟨?_, ?_, ⟨?_, ?_⟩, ?_, ?_, ⟨?_, ?_⟩, ?_, ?_, ⟨?_, ?_, ?_⟩⟩ <;> (try unfold Ascii) <;> decide +kernel
    have hp : e2ePoi.Plain := by
      refine ⟨?_, ?_, ?_⟩
      · intro q hq
        have : e2ePoi.poi.all (fun q => decide (q.path < 2 ^ 32)) = true := by decide +kernel
        rw [hq] at this
        exact of_decide_eq_true this
      · unfold Ascii; decide +kernel
      · unfold Ascii; decide +kernel
    generalize e2eSth = a at *
    generalize e2ePoi = b at *
    intro e he
    simp only [List.nil_append, List.cons_append, List.mem_cons, List.not_mem_nil, or_false] at he
    rcases he with rfl | rfl
    · exact ⟨hg, fun _ => rfl⟩
    · exact ⟨hp, fun _ _ => rfl⟩
  exact C162_end_to_end_partial (S := sysConf) (T := 2) jsonLaws rsaPub rsaLaws xlaws caConf caRoot (by decide +kernel) lib.sha256 (go!"rootkey") [] caInit rfl
    (by decide +kernel) (leafKey 0) (by decide +kernel)
    (fun i j hi hj => (by decide +kernel : ∀ i < 2, ∀ j < 2, lib.sha256 (leafKey 0 i) = lib.sha256 (leafKey 0 j) → i = j) i hi j hj) 0 (by decide) (by decide +kernel) (y 0) rfl logConf
    (fun d => ⟨_, rfl⟩) (by unfold Safe; decide +kernel) (by unfold Ascii; decide +kernel) (by decide) [.precert (y 0).raw, .precert (y 1).raw]
    e2eLs e2eLs' e2eLs_run at34 at35 e2eLs_step (by decide +kernel) (by decide +kernel) (by decide +kernel)
    (by decide +kernel) e2eSth (by decide +kernel) e2eLs'.sentPOIs (by decide +kernel) (go!"C1") e2ePoi (by decide +kernel)
    (by decide +kernel) rfl rfl [] [] [] hev e2eCA e2eCA_run (by decide) rfl (h0 := []) (mesh_enough bothDone_up)
    bothDone_sth (go!"G1") (by decide) (bothDone_up _ (by decide))
    (both_fetch _ [.query clk35] _ bothDone_hist1 (by decide +kernel))
    headRev (by decide +kernel) (by decide +kernel) (by decide +kernel) (by decide +kernel) bothDone_rev (go!"G1") (by decide)
    (bothDone_up _ (by decide)) (both_fetch _ [.query clk35, .answer 0 (.obj e2eSth), .gossip (some e2eSth), .gossip (some (bothSth (go!"G1")))] _
      bothDone_hist1 (by decide +kernel))
    (fun _ _ => ⟨rfl, rfl, fun _ => rfl, fun _ => rfl⟩) (go!"G2") (by decide) (bothDone_up _ (by decide)) m clk35 (by decide +kernel)
    (both_published _ m hm (bothSth (go!"G2")) (by decide +kernel) (by decide +kernel) ((check_rounds bothDone_check).2.2.2 m hm).1)
    (both_published _ m hm (bothRev (go!"G2")) (by decide +kernel) (by decide +kernel) ((check_rounds bothDone_check).2.2.2 m hm).2)

/-- C162: that update is accepted by a new client, which then has no proof against L1; certificate 1 is not revoked and 2 is. -/
example : ((sysRun xlib sysConf Sys.init bothDone).mon (go!"G2")).map (fun m =>
    let m' := endPeriod xlib (sysConf.mon (go!"G2")) clk35 m
    let z := handleUpdate xlib m1 true ((m'.files.get (periodIO (sysConf.mon (go!"G2")) clk35)).getD emptyUpdate) initClient
    decide (z.1 = .accepted) && (z.2.pomDB.get (go!"L1")).isNone && !(getSRHandDCRV xlib headRev).2.test 1 &&
      (getSRHandDCRV xlib headRev).2.test 2 &&
      decide ((signAll xlib lib.sha256 caRoot e2eCA).map (fun f => (f.rid xlib, verifyCTngExt xlib m1 z.2 f)) =
        [(1, .accept), (2, .reject)])) = some true := by decide +kernel

end Ref
end CTng
