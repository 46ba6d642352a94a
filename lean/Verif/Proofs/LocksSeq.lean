import Verif.Model.Locks
/- The sections of `Model/Locks.lean` executed without interruption are the atomic actions of `Model/GossiperConc.lean`. -/
set_option autoImplicit false

namespace CTng
namespace Locks

/-- The program point of the coarse model. -/
def LFrame.abs : LFrame → Frame
  | .pt f => f
  | .blAdd g => .storeBl g

/-- The accesses of a section, one after the other. -/
def evalBody (clk : Clock) : Body → GState → GState × Option (List LFrame)
  | .ret r, g => ((r clk).upd.apply clk g, (r clk).next)
  | .peek m r, g => ((r (load g m) clk).upd.apply clk g, (r (load g m) clk).next)
  | .read m k, g => evalBody clk (k (load g m)) g
  | .write m f r, g => ((r clk).upd.apply clk (put g m (f (load g m))), (r clk).next)

/-- Forget the finer program points. -/
def absRes (r : GState × Option (List LFrame)) : GState × Option (List Frame) := (r.1, r.2.map (·.map LFrame.abs))

@[simp] theorem map_abs_pt (fs : List Frame) : (fs.map LFrame.pt).map LFrame.abs = fs := by
  induction fs with
  | nil => rfl
  | cons f t ih => simp only [List.map_cons, ih, LFrame.abs]

@[simp] theorem abs_comp_pt : LFrame.abs ∘ LFrame.pt = id := rfl

@[simp] theorem apply_nil (clk : Clock) (g : GState) : ({} : Upd).apply clk g = g := by
  simp [Upd.apply]

theorem objs_at {t : GType} {m : ObjMap} (h : objMap t = some m) (s : Storage) : s.objs t = objAt s m := by
  cases t <;> simp only [objMap, Option.some.injEq, reduceCtorEq] at h <;> subst h <;> rfl

theorem frags_at {t : GType} {m : FragMap} (h : fragMap t = some m) (s : Storage) : s.frags t = fragAt s m := by
  cases t <;> simp only [fragMap, Option.some.injEq, reduceCtorEq] at h <;> subst h <;> rfl

theorem putObj_at {t : GType} {m : ObjMap} (h : objMap t = some m) (s : Storage) (k : GossipID) (o : GossipObj) :
    s.putObj t k o = putObjAt s m ((objAt s m).set k o) := by
  cases t <;> simp only [objMap, Option.some.injEq, reduceCtorEq] at h <;> subst h <;> rfl

theorem appendFrag_at {t : GType} {m : FragMap} (h : fragMap t = some m) (s : Storage) (k : GossipID) (o : GossipObj) :
    s.appendFrag t k o = putFragAt s m ((fragAt s m).set k (((fragAt s m).get k).getD [] ++ [o])) := by
  cases t <;> simp only [fragMap, Option.some.injEq, reduceCtorEq] at h <;> subst h <;> rfl

theorem has_getD_sig (v : GoMap GossipID GossipObj) (k : GossipID) (x : Sig2) :
    (if v.has k = true then decide (((v.get k).getD .zero).sig = x) else false) =
      (match v.get k with | none => false | some o => decide (o.sig = x)) := by
  unfold GoMap.has
  cases v.get k <;> rfl

theorem eval_dupObj (clk : Clock) (m : ObjMap) (g : GossipObj) (k : Bool → Body) (s : GState) :
    evalBody clk (dupObj m g k) s = evalBody clk (k (match (objAt s.storage m).get g.getID with
      | none => false
      | some o => decide (o.sig = g.sig))) s := by
  show evalBody clk (if (objAt s.storage m).has g.getID = true then
    .read (.obj m) fun v => k (decide (((v.get g.getID).getD .zero).sig = g.sig)) else k false) s = _
  rw [← has_getD_sig]
  by_cases h : (objAt s.storage m).has g.getID = true
  · rw [if_pos h, if_pos h]; rfl
  · rw [if_neg h, if_neg h]

theorem eval_dupFrag (clk : Clock) (m : FragMap) (g : GossipObj) (k : Bool → Body) (s : GState) :
    evalBody clk (dupFrag m g k) s = evalBody clk (k ((((fragAt s.storage m).get g.getID).getD []).any
      fun o => o.sig = g.sig)) s := by
  show evalBody clk (if (((fragAt s.storage m).get g.getID).getD []).length = 0 then k false
    else .read (.frag m) fun v => k (((v.get g.getID).getD []).any fun o => o.sig = g.sig)) s = _
  by_cases h : (((fragAt s.storage m).get g.getID).getD []).length = 0
  · rw [if_pos h, List.eq_nil_of_length_eq_zero h]; rfl
  · rw [if_neg h]; rfl

theorem eval_dup (clk : Clock) (g : GossipObj) (r : Bool → Clock → Ans) (s : GState) :
    evalBody clk (dupSec g r).body s = evalBody clk (.ret (r (dupCheck s g))) s := by
  unfold dupSec dupCheck
  cases ht : g.type <;> simp only [objMap, fragMap, eval_dupObj, eval_dupFrag, localSec] <;> rfl

theorem eval_bl (clk : Clock) (id : Str) (r : Bool → Clock → Ans) (s : GState) :
    evalBody clk (blSec id r).body s = evalBody clk (.ret (r (inBlacklist s id))) s := rfl

theorem eval_count (clk : Clock) (id : GossipID) (t : GType) (r : Nat → Clock → Ans) (s : GState) :
    evalBody clk (countSec id t r).body s = evalBody clk (.ret (r (itemCount s id t))) s := by
  unfold countSec itemCount
  cases t <;> rfl

theorem eval_object (clk : Clock) (id : GossipID) (t : GType) (r : GossipObj → Clock → Ans) (s : GState) :
    evalBody clk (objectSec id t r).body s = evalBody clk (.ret (r (getObject s id t))) s := by
  unfold objectSec getObject
  cases t <;> rfl

theorem eval_list (clk : Clock) (id : GossipID) (t : GType) (r : List GossipObj → Clock → Ans) (s : GState) :
    evalBody clk (listSec id t r).body s = evalBody clk (.ret (r (getObjectList s id t))) s := by
  unfold listSec getObjectList Storage.fragList
  cases t <;> rfl

theorem eval_store (clk : Clock) (g : GossipObj) (r : Bool → Clock → Ans) (s : GState) :
    evalBody clk (storeSec g r).body s = evalBody clk (.ret (r (storeLocked s g).2)) (storeLocked s g).1 := by
  cases ht : g.type
  case STH_INIT =>
    have e : storeLocked s g = if dupCheck s g then (s, false)
        else ({ s with storage := s.storage.putObj .STH_INIT g.getID g }, true) := by
      unfold storeLocked; rw [ht]
    rw [e]
    have e2 : evalBody clk (storeSec g r).body s =
        evalBody clk (if dupCheck s g then .ret (r false)
          else .write (.obj .sthInit) (fun v => v.set g.getID g) (r true)) s := by
      unfold storeSec dupCheck
      rw [ht]
      exact eval_dupObj clk .sthInit g (fun b => if b then .ret (r false) else
        .write (.obj .sthInit) (fun v => v.set g.getID g) (r true)) s
    rw [e2]
    cases dupCheck s g <;> rfl
  case REV_INIT =>
    have e : storeLocked s g = if dupCheck s g then (s, false)
        else ({ s with storage := s.storage.putObj .REV_INIT g.getID g }, true) := by
      unfold storeLocked; rw [ht]
    rw [e]
    have e2 : evalBody clk (storeSec g r).body s =
        evalBody clk (if dupCheck s g then .ret (r false)
          else .write (.obj .revInit) (fun v => v.set g.getID g) (r true)) s := by
      unfold storeSec dupCheck
      rw [ht]
      exact eval_dupObj clk .revInit g (fun b => if b then .ret (r false) else
        .write (.obj .revInit) (fun v => v.set g.getID g) (r true)) s
    rw [e2]
    cases dupCheck s g <;> rfl
  case ACC_INIT =>
    have e : storeLocked s g = if dupCheck s g then (s, false)
        else ({ s with storage := s.storage.putObj .ACC_INIT g.getID g }, true) := by
      unfold storeLocked; rw [ht]
    rw [e]
    have e2 : evalBody clk (storeSec g r).body s =
        evalBody clk (if dupCheck s g then .ret (r false)
          else .write (.obj .accInit) (fun v => v.set g.getID g) (r true)) s := by
      unfold storeSec dupCheck
      rw [ht]
      exact eval_dupObj clk .accInit g (fun b => if b then .ret (r false) else
        .write (.obj .accInit) (fun v => v.set g.getID g) (r true)) s
    rw [e2]
    cases dupCheck s g <;> rfl
  case CON_INIT =>
    have e : storeLocked s g = if dupCheck s g then (s, false)
        else ({ s with storage := s.storage.putObj .CON_INIT g.getID g }, true) := by
      unfold storeLocked; rw [ht]
    rw [e]
    have e2 : evalBody clk (storeSec g r).body s =
        evalBody clk (if dupCheck s g then .ret (r false)
          else .write (.obj .conInit) (fun v => v.set g.getID g) (r true)) s := by
      unfold storeSec dupCheck
      rw [ht]
      exact eval_dupObj clk .conInit g (fun b => if b then .ret (r false) else
        .write (.obj .conInit) (fun v => v.set g.getID g) (r true)) s
    rw [e2]
    cases dupCheck s g <;> rfl
  all_goals
    unfold storeSec storeLocked
    rw [ht]
    rfl

section
variable {L : Lib}

theorem eval_readStore (cf : GConf L) (clk : Clock) (g : GossipObj) (r : Nat → Clock → Ans) (s : GState) :
    evalBody clk (readStoreSec cf g r).body s =
      evalBody clk (.ret (r (readAndStore cf s g).2)) (readAndStore cf s g).1 := by
  have key : ∀ m, fragMap g.type = some m → readAndStore cf s g =
      if ((((fragAt s.storage m).get g.getID).getD []).length : Int) < cf.crypto.threshold then
        ({ s with storage := s.storage.appendFrag g.type g.getID g }, (((fragAt s.storage m).get g.getID).getD []).length)
      else (s, (((fragAt s.storage m).get g.getID).getD []).length) := by
    intro m hm
    unfold readAndStore
    cases ht : g.type <;> rw [ht] at hm <;> cases hm <;> rfl
  cases hm : fragMap g.type with
  | none =>
    have e : readAndStore cf s g = (s, 0) := by
      unfold readAndStore
      cases ht : g.type <;> rw [ht] at hm <;> first | cases hm | rfl
    rw [e]
    simp only [readStoreSec, hm, localSec]
  | some m =>
    rw [key m hm, appendFrag_at hm]
    simp only [readStoreSec, hm]
    show evalBody clk (if ((((fragAt s.storage m).get g.getID).getD []).length : Int) < cf.crypto.threshold then
      .write (.frag m) (fun v => v.set g.getID ((v.get g.getID).getD [] ++ [g])) (r _) else .ret (r _)) s = _
    by_cases h : ((((fragAt s.storage m).get g.getID).getD []).length : Int) < cf.crypto.threshold
    · rw [if_pos h, if_pos h]; rfl
    · rw [if_neg h, if_neg h]; rfl

theorem eval_initConv (cf : GConf L) (clk : Clock) (r : Bool → Clock → Ans) (s : GState) :
    evalBody clk (initConvSec cf r).body s = evalBody clk (.ret (r (isInitConvergent cf s))) s := rfl

theorem eval_conv (cf : GConf L) (clk : Clock) (r : Bool → Clock → Ans) (s : GState) :
    evalBody clk (convSec cf r).body s = evalBody clk (.ret (r (isConvergent cf s))) s := rfl

theorem apply_send (cf : GConf L) (clk : Clock) (g : GossipObj) (s : GState) :
    (sendUpd cf g).apply clk s = sendToGossipers cf s g := by
  unfold sendUpd sendToGossipers
  by_cases h : (cf.jsonLen g : Int) > cf.optThreshold ∧ g.type = .REV_INIT
  · simp only [if_pos h]; simp [Upd.apply]
  · simp only [if_neg h]; simp [Upd.apply]

/-- Each section, executed alone, does what the coarse model does in one step; only the test before the blacklist update may
leave the update itself to the next section. -/
theorem sec_spec (cf : GConf L) (clk : Clock) (s : GState) (f : LFrame) (hf : f ≠ .pt .wipe) :
    stepFrame cf clk s f.abs = absRes (evalBody clk (secOf cf f).body s) ∨
      ∃ x, evalBody clk (secOf cf f).body s = (s, some [x]) ∧ x.abs = f.abs := by
  cases f with
  | blAdd g =>
    left
    have key : addBlacklist s g.payload.p0 =
        { s with blacklist := if s.blacklist.has g.payload.p0 = true then s.blacklist
          else s.blacklist.set g.payload.p0 true } := by
      unfold addBlacklist inBlacklist
      by_cases h : s.blacklist.has g.payload.p0 = true
      · rw [if_pos h, if_pos h]
      · rw [if_neg h, if_neg h]
    cases ht : g.type
    case CON_INIT | ACC_FULL =>
      have e1 : storeBlacklist s g = addBlacklist s g.payload.p0 := by unfold storeBlacklist; rw [ht]
      have e2 : secOf cf (.blAdd g) = ⟨[(.blacklist, true)], .write .blacklist
          (fun v => if v.has g.payload.p0 then v else v.set g.payload.p0 true) (goOn [.storeNote g])⟩ := by
        simp only [secOf, ht]
      rw [e2]
      simp only [LFrame.abs, stepFrame, e1, key]
      simp [evalBody, goOn, absRes, put, load, LFrame.abs]
      rfl
    all_goals
      have e1 : storeBlacklist s g = s := by unfold storeBlacklist; rw [ht]
      have e2 : secOf cf (.blAdd g) = localSec (goOn [.storeNote g]) := by simp only [secOf, ht]
      rw [e2]
      simp only [LFrame.abs, stepFrame, e1]
      simp [localSec, evalBody, goOn, absRes, LFrame.abs]
  | pt f =>
    cases f with
    | wipe => exact absurd rfl hf
    | recv n g =>
      left
      simp only [secOf, recvSec, LFrame.abs, stepFrame, savePayload]
      by_cases h : n > cf.optThreshold ∧ g.type = .REV_INIT
      · simp only [if_pos h]
        cases hv : g.verify cf.crypto <;> simp [localSec, evalBody, absRes, Upd.apply, LFrame.abs, put, putObjAt, load, objAt]
      · simp [if_neg h, localSec, evalBody, absRes, Upd.apply, LFrame.abs]
    | recon g =>
      left
      simp only [secOf, reconSec, LFrame.abs, stepFrame]
      by_cases h : cf.optMode = true ∧ g.type = .REV_FRAG
      · simp only [if_pos h]; simp [evalBody, goOn, absRes, LFrame.abs, load, objAt, reconstructPayload]
      · simp only [if_neg h]; simp [localSec, evalBody, goOn, absRes, LFrame.abs]
    | handle g => left; simp only [secOf, eval_dup]; simp [absRes, evalBody, goOn, stepFrame, LFrame.abs]
    | blk g =>
      left; simp only [secOf, eval_bl]; simp [absRes, evalBody, goOn, stepFrame, LFrame.abs]
      cases g.type <;> rfl
    | initFull g => left; simp only [secOf, eval_count]; simp [absRes, evalBody, goOn, stepFrame, LFrame.abs]
    | initFrag g =>
      left; simp only [secOf, eval_count]; simp [absRes, evalBody, goOn, stepFrame, LFrame.abs]
      cases g.type <;> rfl
    | initMal g =>
      left
      have e : evalBody clk (secOf cf (.pt (.initMal g))).body s =
          evalBody clk (.ret (goOn (if isMalicious s g then [.initCon g] else [.store g]))) s := by
        simp only [secOf, isMalicious]
        split <;> rename_i ht <;> simp only [eval_object, localSec]
        all_goals simp [ht]
      rw [e]; simp [evalBody, goOn, absRes, LFrame.abs, stepFrame]
    | initCon g => left; simp only [secOf, eval_object]; simp [absRes, evalBody, goOn, stepFrame, LFrame.abs]
    | store g =>
      left
      simp only [secOf, LFrame.abs, stepFrame]
      cases hv : g.verify cf.crypto with
      | panic => simp [localSec, evalBody, absRes]
      | err e => simp [localSec, evalBody, absRes, goOn]
      | ok =>
        simp only [eval_store]
        have e : storeLocked { s with timerlist := s.timerlist ++ [clk.second] } g =
            ({ (storeLocked s g).1 with timerlist := s.timerlist ++ [clk.second] }, (storeLocked s g).2) := by
          have hd : dupCheck { s with timerlist := s.timerlist ++ [clk.second] } g = dupCheck s g := rfl
          unfold storeLocked
          rw [hd]
          cases g.type <;> simp only [] <;> (try split) <;> rfl
        have e3 : (storeLocked s g).1.timerlist = s.timerlist := by
          unfold storeLocked
          cases g.type <;> simp only [] <;> (try split) <;> rfl
        rw [e]
        cases hb : (storeLocked s g).2 <;> simp [evalBody, absRes, Upd.apply, e3, LFrame.abs]
    | storeBl g =>
      simp only [secOf, LFrame.abs, stepFrame, storeBlacklist]
      cases ht : g.type <;> simp only [eval_bl] <;> first
        | (left; simp [localSec, evalBody, goOn, absRes, LFrame.abs]; done)
        | skip
      all_goals
        cases hb : inBlacklist s g.payload.p0
        · right; exact ⟨.blAdd g, by simp [evalBody], rfl⟩
        · left; simp [evalBody, absRes, LFrame.abs, addBlacklist, hb]
    | storeNote g =>
      left
      simp only [secOf, LFrame.abs, stepFrame, storeNote, noteInitConverge]
      cases ht : g.type <;> simp only [eval_initConv] <;> first
        | (simp [localSec, evalBody, goOn, absRes]; done)
        | (cases hb : isInitConvergent cf s <;> simp [evalBody, absRes, Upd.apply])
    | sendPeers g => left; simp [absRes, evalBody, stepFrame, LFrame.abs, secOf, localSec, apply_send]
    | sendOwner g => left; simp [absRes, evalBody, stepFrame, LFrame.abs, secOf, localSec, Upd.apply, sendToMonitor, GState.emit]
    | arm g => left; simp [absRes, evalBody, stepFrame, LFrame.abs, secOf, localSec, Upd.apply]
    | signBlk g => left; simp only [secOf, eval_bl]; simp [absRes, evalBody, goOn, stepFrame, LFrame.abs]
    | sign g =>
      left
      simp only [secOf, LFrame.abs, stepFrame, signStatement, localSec, evalBody]
      cases generateFRAG cf g <;> simp [absRes, Upd.apply, GState.emit, LFrame.abs]
    | conCount g => left; simp only [secOf, eval_count]; simp [absRes, evalBody, goOn, stepFrame, LFrame.abs]
    | fragFull g => left; simp only [secOf, eval_count]; simp [absRes, evalBody, goOn, stepFrame, LFrame.abs]
    | fragStore g => left; simp only [secOf, eval_readStore]; simp [absRes, evalBody, goOn, stepFrame, LFrame.abs]
    | fragGen g =>
      left
      simp only [secOf, eval_list, LFrame.abs, stepFrame, evalBody]
      cases generateFULL cf clk (getObjectList s g.getID g.type) g.getTargetType <;>
        simp [absRes, Upd.apply, GState.emit, LFrame.abs]
    | fullBlk g => left; simp only [secOf, eval_bl]; simp [absRes, evalBody, goOn, stepFrame, LFrame.abs]
    | fullCount g => left; simp only [secOf, eval_count]; simp [absRes, evalBody, goOn, stepFrame, LFrame.abs]
    | fullNote =>
      left
      simp only [secOf, eval_conv, LFrame.abs, stepFrame, noteConverge, evalBody]
      cases hb : isConvergent cf s <;> simp [absRes, Upd.apply]
    | notify n x =>
      left
      simp only [LFrame.abs, stepFrame, notificationHandler]
      have e : evalBody clk (secOf cf (.pt (.notify n x))).body s = evalBody clk (.ret fun _ =>
          if searchPayload L s { period := x.period, type := x.type, entity := x.entity } x.objhash = false then
            { upd := { received := n, sent := cf.notifLen { x with sender := cf.crypto.selfID },
                       out := [.peer x.sender (go!"/gossip/new_payload_request")
                         (.notif { x with sender := cf.crypto.selfID })] }, next := some [] }
          else { upd := { received := n }, next := some [] }) s := rfl
      rw [e]
      have e2 : searchPayload L { s with trafficReceived := s.trafficReceived + n }
          { period := x.period, type := x.type, entity := x.entity } x.objhash =
          searchPayload L s { period := x.period, type := x.type, entity := x.entity } x.objhash := rfl
      rw [e2]
      cases hb : searchPayload L s { period := x.period, type := x.type, entity := x.entity } x.objhash <;>
        simp [evalBody, absRes, Upd.apply, hb]
    | request n x =>
      left
      simp only [LFrame.abs, stepFrame, requestHandler]
      have e : evalBody clk (secOf cf (.pt (.request n x))).body s =
          evalBody clk (.ret (requestAns cf n x (getREVrequested s ⟨x.period, x.type, x.entity⟩))) s := by
        have e0 : evalBody clk (secOf cf (.pt (.request n x))).body s = evalBody clk
            (if (objAt s.storage .payload).has ⟨x.period, .REV_INIT, x.entity⟩ = true then
              .read (.obj .payload) fun v =>
                .ret (requestAns cf n x ((v.get ⟨x.period, .REV_INIT, x.entity⟩).getD .zero))
             else .ret (requestAns cf n x .zero)) s := rfl
        rw [e0]
        by_cases h : (objAt s.storage .payload).has ⟨x.period, .REV_INIT, x.entity⟩ = true
        · rw [if_pos h]; rfl
        · rw [if_neg h]
          have hz : getREVrequested s ⟨x.period, x.type, x.entity⟩ = .zero := by
            simp only [GoMap.has, objAt, Bool.not_eq_true, Option.isSome_eq_false_iff, Option.isNone_iff_eq_none] at h
            simp only [getREVrequested, h, Option.getD_none]
          rw [hz]
      rw [e]
      have e2 : getREVrequested { s with trafficReceived := s.trafficReceived + n }
          { period := x.period, type := x.type, entity := x.entity } =
          getREVrequested s { period := x.period, type := x.type, entity := x.entity } := rfl
      rw [e2]
      simp only [evalBody, requestAns]
      by_cases hb : (getREVrequested s { period := x.period, type := x.type, entity := x.entity }).payload.p0 = [] <;>
        simp [absRes, Upd.apply, hb]
    | save => left; simp [secOf, saveSec, evalBody, absRes, LFrame.abs, stepFrame, Upd.apply]

end
end Locks
end CTng
