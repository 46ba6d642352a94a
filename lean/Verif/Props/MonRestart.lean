import Verif.Model.MonRestart
import Verif.Props.MonitorFiles
import Verif.Props.Honest
import Verif.Props.Survives
import Verif.Props.Wire
/- C155: what a restarted monitor knows. -/
set_option autoImplicit false

namespace CTng
open Mon Wire Json

variable {L : Lib} (X : XLib)

/-! ### The files of a monitor cannot be loaded -/

theorem load_object (ms : List (Str × Json)) (h : NumOk (.obj ms)) (s : MonState) (name : GType) :
    loadOneFile s name (some (marshalIndent [] (go!"  ") (.obj ms))) = (s, false) := by
  have : unmarshal [] (dList .zero dGossip) (marshalIndent [] (go!"  ") (.obj ms)) = ([], false) := by
    rw [unmarshal, parse_marshalIndent _ _ (by intro c hc; cases hc) blank_two _ h]
    simp only [clean, dList]
  simp [loadOneFile, this]

theorem bmon_files (c : MonConf L) (dir : Str) (h : List BMonEvent) : ∀ (s s' : BMon),
    (∀ p t, s.disk.get p = some t → ∃ u, t = fileText u) → bmonRun X c dir s h = some s' →
    ∀ p t, s'.disk.get p = some t → ∃ u, t = fileText u := by
  induction h with
  | nil => intro s s' hi hs; cases hs; exact hi
  | cons e r ih =>
    intro s s' hi hs
    simp only [bmonRun] at hs
    cases h1 : bmonStep X c dir s e with
    | none => rw [h1] at hs; cases hs
    | some s1 =>
      rw [h1] at hs
      refine ih s1 s' ?_ hs
      unfold bmonStep at h1
      cases h2 : monStep X c s.m e.read with
      | none => rw [h2] at h1; cases h1
      | some m =>
        rw [h2] at h1
        cases h1
        cases e <;> try exact hi
        intro p t hp
        rcases get_set_cases hp with ⟨_, rfl⟩ | hp
        · exact ⟨_, rfl⟩
        · exact hi p t hp

/-- C155 is false: in every history, whatever a monitor has written (the client updates of its periods, its vectors) is
refused by `LoadOneStorage` under every name, and nothing of it is taken. A restarted monitor has no proof and no vector. -/
theorem C155_violated_own_files (c : MonConf L) (dir : Str) (h : List BMonEvent) (s : BMon)
    (hs : bmonRun X c dir .init h = some s) :
    (∀ p text, s.restart.disk.get p = some text → ∀ (m : MonState) (name : GType), loadOneFile m name (some text) = (m, false)) ∧
    (∀ vs m name, loadOneFile m name (some (crvText vs)) = (m, false)) ∧
    (∀ clk e, checkEntityPom s.restart.m clk e = false) ∧ ∀ e, s.restart.m.crv.get e = none := by
  refine ⟨?_, ?_, fun _ _ => rfl, fun _ => rfl⟩
  · intro p text hp m name
    obtain ⟨u, rfl⟩ := bmon_files X c dir h .init s (by simp [BMon.init, GoMap.get_empty]) hs p text hp
    exact load_object _ (numOk_update u) m name
  · intro vs m name
    refine load_object _ ?_ m name
    show NumOkMembers _
    have : ∀ l : List Str, NumOkMembers (l.filterMap fun k => (vs.get k).map fun v => (k, Json.str (b64enc v))) := by
      intro l
      induction l with
      | nil => trivial
      | cons k t ih =>
        rw [List.filterMap_cons]
        cases vs.get k with
        | none => exact ih
        | some v => exact ⟨trivial, ih⟩
    exact this _

/-! ### An honest CA is accused -/

/-- The verdict on an answer of a CA that verifies and whose SRH does not pass: the monitor waits, and then accuses. -/
theorem rejected_accused (c : MonConf L) (s : MonState) (i : Nat) (u : Str) (g : GossipObj) (clk : Clock)
    (hq : s.queries[i]? = some (u, .ca)) (hv : g.verify c.crypto = .ok) {e : _}
    (hr : verifySRH X c.crypto s.crv (getSRHandDCRV X g).1 (getSRHandDCRV X g).2 g.payload.p0 g.period = .err e)
    (hp : s.accusationPom.get ⟨clk.period, .ACC_FULL, u⟩ = none)
    (hc : s.conflictPom.get ⟨go!"0", .CON_INIT, u⟩ = none) (ht : s.temp.get ⟨clk.period, .REV_INIT, u⟩ = none) :
    ∃ s', monRun X c s [.answer i (.obj g), .wait s.waits.length clk] = some s' ∧ s'.sent = s.sent ++ [accusation c clk u] := by
  let s1 : MonState := { s with queries := s.queries.eraseIdx i, waits := s.waits ++ [(u, .ca)] }
  have h1 : monStep X c s (.answer i (.obj g)) = some s1 := by
    simp only [monStep, hq, answerQuery, hv, hr]
    rfl
  obtain ⟨s', h2, h3⟩ := C45_silence_is_accused X c s1 s.waits.length clk u .ca (by simp [s1]) hp hc ht
  exact ⟨s', by simp only [monRun, h1, h2], h3⟩

section CA
variable (J : L.JsonLaws) (P : L.Panics) (pub : L.RsaPriv → L.RsaPub) (laws : L.RsaLaws pub) (c : CAConf L) (root : Cert) (mc : MonConf L)
  (hr : Registered pub c mc.crypto) (hX : X.Laws) (sha : Str → Str) (signer rootPub : Str)
include J P laws hr hX

/-- C155 is false: a monitor restarted after the first period of an honest CA that has revoked a certificate queries it,
is given the CA's own revocation of the period, and accuses it when the waiting time is over (or the hash collides on the bytes
hashed). It does so in every later period. -/
theorem C155_violated_honest_ca_accused (evs between : List CAEvent) (t0 t : Instant) (pos0 pos : List Nat) (s' : CAState)
    (h : caRun X c root (initCA X sha signer rootPub).2 (evs ++ [.finish t0 pos0] ++ between ++ [.finish t pos]) = some s')
    (j : Nat) (hj : s'.crv.current.test j = true) (s : BMon) (hca : c.signer ∈ mc.caURLs) (clk : Clock) :
    ∃ g i w m, s'.revStorage.get (caNextPeriod t) = some g ∧ g.verify mc.crypto = .ok ∧
      (monRun X mc s.restart.m [.query clk, .answer i (.obj g), .wait w clk] = some m ∧
          m.sent = s.m.sent ++ [accusation mc clk c.signer] ∨
        CollisionIn L.sha256 (srhInputs L X (caNextPeriod t) (BitSet.new crvSize) (BitSet.new crvSize))
          (srhInputs L X (caNextPeriod t) s'.crv.current (BitSet.new crvSize))) := by
  obtain ⟨g, h1, h2⟩ := C57_violated_late_joiner X J pub laws c root mc.crypto hr hX sha signer rootPub evs between t0 t pos0 pos s' h j hj
    .empty rfl
  obtain ⟨g', st, h3, h4, h5, h6, h7⟩ := published_exact X c root hX hr.ascii sha signer rootPub
    (evs ++ [.finish t0 pos0] ++ between) t pos s' h
  rw [h1] at h3
  obtain rfl := Option.some.inj h3
  have hv := C76_revocations_verify X J pub laws c hr.can hr.safe hr.signer mc.crypto hr.scheme hr.key st _ false g h4
  let s1 : MonState := startQueries mc clk s.restart.m
  have hq : (c.signer, EntityKind.ca) ∈ s1.queries := by
    refine List.mem_append_right _ (List.mem_map.2 ⟨c.signer, List.mem_filter.2 ⟨hca, ?_⟩, rfl⟩)
    rfl
  obtain ⟨i, hi⟩ := List.mem_iff_getElem?.1 hq
  rcases h2 with h2 | h2
  · cases hres : verifySRH X mc.crypto .empty (getSRHandDCRV X g).1 (getSRHandDCRV X g).2 g.payload.p0 g.period with
    | ok => exact absurd hres h2
    | panic =>
      exfalso
      have hf := (srh_panic_iff P X mc.crypto .empty g _ _ _).1 hres
      obtain ⟨b, hb⟩ := hr.can (L.sha256 (srhMessage L X (caNextPeriod t) s'.crv.current
        (if hasFinish (evs ++ [.finish t0 pos0] ++ between) then BitSet.new crvSize else s'.crv.current)))
      have hs : (getSRHandDCRV X g).1 = (RSASig.mk b c.crypto.selfID).toStr := by
        rw [h7]
        simp only [honestSRH, rsaSignMsg, hb, Option.map_some, Option.getD_some]
      have hd := rsaSig_roundtrip J ⟨b, c.crypto.selfID⟩ hr.safe
      rcases hf with ⟨r, hf, hn⟩ | ⟨hf, _⟩
      · rw [hs, hd] at hf
        obtain rfl := Option.some.inj hf
        rw [hr.key] at hn
        cases hn
      · rw [hs, hd] at hf
        cases hf
    | err e =>
      obtain ⟨m, h8, h9⟩ := rejected_accused X mc s1 i c.signer g clk hi hv hres rfl rfl rfl
      refine ⟨g, i, s1.waits.length, m, h1, hv, .inl ⟨?_, h9⟩⟩
      simp only [monRun, monStep] at h8 ⊢
      exact h8
  · exact ⟨g, 0, 0, initMonitor, h1, hv, .inr h2⟩

end CA

/-! ### Lists would restore it -/

/-- A list of objects whose strings are plain text is read back from its file as it is. -/
theorem listText_read (l : List GossipObj) (hl : ∀ g ∈ l, ObjOk g) :
    unmarshal [] (dList .zero dGossip) (listText l) = (l, true) := by
  have hn : NumOk (.arr (l.map gossipJson)) := numOkElems_map _ _ fun g _ => numOk_gossip g
  rw [unmarshal, listText, parse_marshalIndent _ _ (by intro c hc; cases hc) blank_two _ hn]
  simp only [clean, cleanElems_map, List.map_map]
  rw [dList_map GossipObj.zero dGossip (clean ∘ gossipJson) id _ (fun g hg => ?_), List.map_id]
  rw [Function.comp_apply, dGossip_read, cleanObj_eq (hl g hg)]
  rfl

/-- C99 is false: the file of any list of objects, loaded under the name of a storage, is loaded completely - under each id the last
object of the list with that id, the rest of that storage and the other storages as before - and the call returns an error, as
it does for every file whatever is in it. -/
theorem C99_violated_file (name : GType) (f : MonState → GStore) (hf : StoreOf name f) (s : MonState) (l : List GossipObj)
    (hl : ∀ g ∈ l, ObjOk g) :
    (∀ k, (f (loadOneFile s name (some (listText l))).1).get k = ((l.reverse.find? fun o => o.getID = k).or ((f s).get k))) ∧
    (∀ name' f', StoreOf name' f' → name' ≠ name → f' (loadOneFile s name (some (listText l))).1 = f' s) ∧
    ∀ file, (loadOneFile s name file).2 = false := by
  have he : loadOneFile s name (some (listText l)) = loadOneStorage s name l := by simp [loadOneFile, listText_read l hl]
  rw [he]
  refine ⟨(C99_loaded_partial name f hf s l).1, (C99_loaded_partial name f hf s l).2, fun file => ?_⟩
  cases file with
  | none => rfl
  | some t =>
    simp only [loadOneFile]
    split
    · rfl
    · rfl

/-- C155, the stores of proofs and of threshold-signed statements: had the monitor, after any history, written one of them as the
list of its objects, a restarted monitor that loads that list would hold exactly what it held (though it is told that loading
failed, `C99_violated_file`). Missing: nothing writes these lists or calls `LoadOneStorage`, and the vectors have no
loader at all. -/
theorem C155_lists_restore_partial (c : MonConf L) (hc : MonText c) (dir : Str) (h : List BMonEvent)
    (hk : ∀ e ∈ h, ∀ clk, e.clock = some clk → ClockOk clk) (s : BMon) (hs : bmonRun X c dir .init h = some s)
    (name : GType) (f : MonState → GStore) (hf : StoreOf name f) (k : GossipID) :
    (f (loadOneFile s.restart.m name (some (listText (f s.m).values))).1).get k = (f s.m).get k := by
  have hi := MonInv.run X c hc h (monInv_init c dir) hk hs
  have hst : ∀ k g, (f s.m).get k = some g → k = g.getID ∧ ObjOk g := by
    intro k g hg
    cases hf
    · exact ⟨(hi.stores.con k g hg).1, (hi.stores.con k g hg).2.1⟩
    · exact ⟨(hi.stores.acc k g hg).1, (hi.stores.acc k g hg).2.1⟩
    · exact ⟨(hi.stores.sth k g hg).1, (hi.stores.sth k g hg).2.1⟩
    · exact ⟨(hi.stores.rev k g hg).1, (hi.stores.rev k g hg).2.1⟩
  have hu : unmarshal [] (dList .zero dGossip) (listText (f s.m).values) = ((f s.m).values, true) :=
    listText_read _ fun g hg => by
      obtain ⟨k, hk⟩ := (GoMap.mem_values_iff _ _).1 hg
      exact (hst k g hk).2
  have hl : loadOneFile s.restart.m name (some (listText (f s.m).values)) = loadOneStorage s.restart.m name (f s.m).values := by
    simp [loadOneFile, hu]
  rw [hl, (C99_loaded_partial name f hf _ _).1]
  have he : (f s.restart.m).get k = none := by cases hf <;> rfl
  rw [he, Option.or_none]
  cases hg : (f s.m).get k with
  | none =>
    rw [List.find?_eq_none]
    intro o ho hx
    obtain ⟨k', hk'⟩ := (GoMap.mem_values_iff _ _).1 (List.mem_reverse.1 ho)
    have := (hst k' o hk').1
    simp only [decide_eq_true_eq] at hx
    rw [this, hx, hg] at hk'
    cases hk'
  | some g =>
    have hm : g ∈ (f s.m).values := (GoMap.mem_values_iff _ _).2 ⟨k, hg⟩
    cases hx : (f s.m).values.reverse.find? fun o => decide (o.getID = k) with
    | none =>
      rw [List.find?_eq_none] at hx
      exact absurd (by simp [(hst k g hg).1]) (hx g (List.mem_reverse.2 hm))
    | some o =>
      have h1 := List.find?_some hx
      obtain ⟨k', hk'⟩ := (GoMap.mem_values_iff _ _).1 (List.mem_reverse.1 (List.mem_of_find?_eq_some hx))
      have h2 := (hst k' o hk').1
      simp only [decide_eq_true_eq] at h1
      rw [h2, h1, hg] at hk'
      exact congrArg some (Option.some.inj hk').symm

/-! ### Concrete cases -/

namespace Ref

/-- C155: the file of the period is there after a restart, and `LoadOneStorage` refuses it; the tree head in it is gone. -/
example : ((bmonRun xlib monConf (go!"data") .init bmonHist).map fun s =>
    ((s.restart.disk.get (go!"data/Period_2/ClientUpdate.json")).isSome, s.m.sthFull.keys.length,
      (loadOneFile s.restart.m .STH_FULL (s.restart.disk.get (go!"data/Period_2/ClientUpdate.json"))).1.sthFull.keys.length)) =
    some (true, 1, 0) := by decide +kernel

/-- C99: the file of a list of one tree head, loaded by a monitor that has none: it is there, and the call has failed. -/
example : ((loadOneFile initMonitor .STH_FULL (some (listText [sthFull05]))).1.sthFull.get sthFull05.getID,
    (loadOneFile initMonitor .STH_FULL (some (listText [sthFull05]))).2) = (some sthFull05, false) := by decide +kernel

example : ∀ file, (loadOneFile initMonitor .CON_INIT file).2 = false :=
  (C99_violated_file .CON_INIT _ .con initMonitor [] (fun _ h => by cases h)).2.2

/-- C155: loaded from a list it is back. -/
example : ((bmonRun xlib monConf (go!"data") .init bmonHist).map fun s =>
    (loadOneFile s.restart.m .STH_FULL (some (listText s.m.sthFull.values))).1.sthFull.get sthFull05.getID) =
    some (some sthFull05) := by decide +kernel

example (s : BMon) (hs : bmonRun xlib monConf (go!"data") .init bmonHist = some s) (k : GossipID) :
    (loadOneFile s.restart.m .STH_FULL (some (listText s.m.sthFull.values))).1.sthFull.get k = s.m.sthFull.get k :=
  C155_lists_restore_partial xlib monConf monConf_text _ bmonHist bmonHist_clock s hs .STH_FULL _ .sth k

/-- C155: a CA that revoked certificate 4 in its first period and publishes its second revocation: the running monitor, which has the
vector of the first, accepts it; the restarted one accuses the CA. -/
example : ((caRun xlib caConf caRoot caInit [.revoke 4, .finish at58 [], .finish at59 []]).map fun s' =>
    let g := (s'.revStorage.get (caNextPeriod at59)).getD .zero
    let old : BMon := ⟨{ initMonitor with crv := GoMap.empty.set (go!"C1") s'.crv.current }, .empty⟩
    let ev : List MonEvent := [.query clk, .answer 1 (.obj g), .wait 0 clk]
    ((monRun xlib monConf old.m ev).map (·.sent.map (·.type)), (monRun xlib monConf old.restart.m ev).map (·.sent.map (·.type)))) =
    some (some [.REV_INIT], some [.ACC_INIT]) := by decide +kernel

/-- The hypotheses of `C155_violated_honest_ca_accused` on this history. -/
example : ∃ s', caRun xlib caConf caRoot (initCA xlib lib.sha256 (go!"C1") (go!"rootkey")).2
      ([.revoke 4] ++ [.finish at58 []] ++ [] ++ [.finish at59 []]) = some s' ∧ s'.crv.current.test 4 = true ∧
    caConf.signer ∈ monConf.caURLs ∧ lib.Panics ∧ Registered rsaPub caConf monConf.crypto := by
  have h : ((caRun xlib caConf caRoot caInit [.revoke 4, .finish at58 [], .finish at59 []]).map fun s' => s'.crv.current.test 4) =
      some true := by decide +kernel
  obtain ⟨s', h1, h2⟩ := Option.map_eq_some_iff.1 h
  exact ⟨s', h1, h2, by decide +kernel, panics, registered⟩

end Ref

end CTng
