import Verif.Proofs.LocksSeq
/- Invariants of the lock-level gossiper. -/
set_option autoImplicit false

namespace CTng
namespace Locks

/-- An order of the locks. -/
def rank : LockName → Nat
  | .obj .revInit => 0
  | .obj .sthInit => 1
  | .obj .accInit => 2
  | .obj .conInit => 3
  | .obj .revFull => 4
  | .obj .sthFull => 5
  | .obj .accFull => 6
  | .obj .payload => 7
  | .frag .sth => 8
  | .frag .rev => 9
  | .frag .acc => 10
  | .blacklist => 11

theorem rank_lt (l : LockName) : rank l < 12 := by
  cases l with
  | obj m => cases m <;> decide
  | frag m => cases m <;> decide
  | blacklist => decide

/-- Accesses under their locks. `free`: accesses without lock are allowed when nothing depends on what they see. -/
def BodyOk (free : Bool) (locks : List (LockName × Bool)) : Body → Prop
  | .ret _ => True
  | .peek _ _ => True
  | .read m k => ((∃ c, (m, c) ∈ locks) ∨ (free = true ∧ ∀ v v', k v = k v')) ∧ ∀ v, BodyOk free locks (k v)
  | .write m _ _ => (m, true) ∈ locks

/-- Locks in the order of `rank`, accesses under their locks. -/
def SecOk (free : Bool) (s : Sec) : Prop :=
  s.locks.Pairwise (fun a b => rank a.1 < rank b.1) ∧ BodyOk free s.locks s.body

theorem localSec_ok (free : Bool) (r : Clock → Ans) : SecOk free (localSec r) := ⟨.nil, trivial⟩

theorem dupObj_ok (free : Bool) (m : ObjMap) (g : GossipObj) (k : Bool → Body) (c : Bool)
    (h : ∀ b, BodyOk free [(.obj m, c)] (k b)) : BodyOk free [(.obj m, c)] (dupObj m g k) := by
  unfold dupObj
  refine ⟨.inl ⟨c, by simp⟩, fun v => ?_⟩
  simp only []
  split
  · exact ⟨.inl ⟨c, by simp⟩, fun v => h _⟩
  · exact h _

theorem dupFrag_ok (free : Bool) (m : FragMap) (g : GossipObj) (k : Bool → Body) (c : Bool)
    (h : ∀ b, BodyOk free [(.frag m, c)] (k b)) : BodyOk free [(.frag m, c)] (dupFrag m g k) := by
  unfold dupFrag
  refine ⟨.inl ⟨c, by simp⟩, fun v => ?_⟩
  simp only []
  split
  · exact h _
  · exact ⟨.inl ⟨c, by simp⟩, fun v => h _⟩

theorem dupSec_ok (free : Bool) (g : GossipObj) (r : Bool → Clock → Ans) : SecOk free (dupSec g r) := by
  unfold dupSec
  split
  · exact ⟨List.pairwise_singleton _ _, by simp only []; apply dupObj_ok; intro b; trivial⟩
  · exact ⟨List.pairwise_singleton _ _, by simp only []; apply dupFrag_ok; intro b; trivial⟩
  · exact localSec_ok _ _

theorem blSec_ok (free : Bool) (id : Str) (r : Bool → Clock → Ans) : SecOk free (blSec id r) :=
  ⟨List.pairwise_singleton _ _, .inl ⟨false, by simp [blSec]⟩, fun _ => trivial⟩

theorem countSec_ok (free : Bool) (id : GossipID) (t : GType) (r : Nat → Clock → Ans) : SecOk free (countSec id t r) := by
  unfold countSec
  split
  · exact ⟨List.pairwise_singleton _ _, .inl ⟨false, by simp⟩, fun _ => trivial⟩
  · exact ⟨List.pairwise_singleton _ _, .inl ⟨false, by simp⟩, fun _ => trivial⟩
  · exact localSec_ok _ _

theorem objectSec_ok (free : Bool) (id : GossipID) (t : GType) (r : GossipObj → Clock → Ans) :
    SecOk free (objectSec id t r) := by
  unfold objectSec
  split
  · exact ⟨List.pairwise_singleton _ _, .inl ⟨false, by simp⟩, fun _ => trivial⟩
  · exact localSec_ok _ _

theorem listSec_ok (free : Bool) (id : GossipID) (t : GType) (r : List GossipObj → Clock → Ans) :
    SecOk free (listSec id t r) := by
  unfold listSec
  split
  · exact ⟨List.pairwise_singleton _ _, .inl ⟨false, by simp⟩, fun _ => trivial⟩
  · exact localSec_ok _ _

theorem storeSec_ok (free : Bool) (g : GossipObj) (r : Bool → Clock → Ans) : SecOk free (storeSec g r) := by
  unfold storeSec
  split
  · split
    · refine ⟨List.pairwise_singleton _ _, ?_⟩
      simp only []
      apply dupObj_ok
      intro b
      cases b
      · exact List.mem_singleton.2 rfl
      · trivial
    · exact localSec_ok _ _
  · split
    · refine ⟨List.pairwise_singleton _ _, ?_⟩
      simp only []
      apply dupObj_ok
      intro b
      cases b
      · exact List.mem_singleton.2 rfl
      · trivial
    · exact localSec_ok _ _
  · split
    · refine ⟨List.pairwise_singleton _ _, ?_⟩
      simp only []
      apply dupObj_ok
      intro b
      cases b
      · exact List.mem_singleton.2 rfl
      · trivial
    · exact localSec_ok _ _
  · split
    · refine ⟨List.pairwise_singleton _ _, ?_⟩
      simp only []
      apply dupObj_ok
      intro b
      cases b
      · exact List.mem_singleton.2 rfl
      · trivial
    · exact localSec_ok _ _
  all_goals first
    | exact localSec_ok _ _
    | (split
       · first
         | exact ⟨List.pairwise_singleton _ _, .inl ⟨true, by simp⟩, fun _ => List.mem_singleton.2 rfl⟩
         | exact ⟨List.pairwise_singleton _ _, List.mem_singleton.2 rfl⟩
       · exact localSec_ok _ _)

section
variable {L : Lib}

theorem readStoreSec_ok (free : Bool) (cf : GConf L) (g : GossipObj) (r : Nat → Clock → Ans) :
    SecOk free (readStoreSec cf g r) := by
  unfold readStoreSec
  split
  · refine ⟨List.pairwise_singleton _ _, .inl ⟨true, by simp⟩, fun _ => ⟨.inl ⟨true, by simp⟩, fun _ => ?_⟩⟩
    simp only []
    split
    · exact List.mem_singleton.2 rfl
    · trivial
  · exact localSec_ok _ _

theorem initConvSec_ok (free : Bool) (cf : GConf L) (r : Bool → Clock → Ans) : SecOk free (initConvSec cf r) := by
  refine ⟨by simp [initConvSec, rank], ?_⟩
  exact ⟨.inl ⟨false, by simp [initConvSec]⟩, fun _ => ⟨.inl ⟨false, by simp [initConvSec]⟩, fun _ =>
    ⟨.inl ⟨false, by simp [initConvSec]⟩, fun _ => trivial⟩⟩⟩

theorem convSec_ok (free : Bool) (cf : GConf L) (r : Bool → Clock → Ans) : SecOk free (convSec cf r) := by
  refine ⟨by simp [convSec, rank], ?_⟩
  exact ⟨.inl ⟨false, by simp [convSec]⟩, fun _ => ⟨.inl ⟨false, by simp [convSec]⟩, fun _ =>
    ⟨.inl ⟨false, by simp [convSec]⟩, fun _ => trivial⟩⟩⟩

theorem recvSec_ok (free : Bool) (cf : GConf L) (n : Int) (g : GossipObj) : SecOk free (recvSec cf n g) := by
  unfold recvSec
  simp only
  split
  · split
    · exact localSec_ok _ _
    · exact localSec_ok _ _
    · exact ⟨List.pairwise_singleton _ _, List.mem_singleton.2 rfl⟩
  · exact localSec_ok _ _

theorem reconSec_ok (free : Bool) (cf : GConf L) (g : GossipObj) : SecOk free (reconSec cf g) := by
  unfold reconSec
  split
  · exact ⟨List.pairwise_singleton _ _, .inl ⟨false, by simp⟩, fun _ => trivial⟩
  · exact localSec_ok _ _

theorem notifySec_ok (free : Bool) (cf : GConf L) (n : Int) (x : Notification) : SecOk free (notifySec cf n x) :=
  ⟨List.pairwise_singleton _ _, .inl ⟨false, by simp [notifySec]⟩, fun _ => trivial⟩

theorem requestSec_ok (free : Bool) (cf : GConf L) (n : Int) (x : Notification) : SecOk free (requestSec cf n x) := by
  refine ⟨List.pairwise_singleton _ _, .inl ⟨false, by simp [requestSec]⟩, fun v => ?_⟩
  simp only
  split
  · exact ⟨.inl ⟨false, by simp [requestSec]⟩, fun _ => trivial⟩
  · trivial

/-- Every section keeps the discipline; only `Save` looks at maps without their locks. -/
theorem secOf_ok (cf : GConf L) (f : LFrame) : SecOk (decide (f = .pt .save)) (secOf cf f) := by
  cases f with
  | blAdd g =>
    simp only [secOf]
    split
    · exact ⟨List.pairwise_singleton _ _, List.mem_singleton.2 rfl⟩
    · exact ⟨List.pairwise_singleton _ _, List.mem_singleton.2 rfl⟩
    · exact localSec_ok _ _
  | pt f =>
    cases f with
    | recv n g => exact recvSec_ok _ cf n g
    | recon g => exact reconSec_ok _ cf g
    | handle g => exact dupSec_ok _ _ _
    | blk g => exact blSec_ok _ _ _
    | initFull g => exact countSec_ok _ _ _ _
    | initFrag g => exact countSec_ok _ _ _ _
    | initMal g =>
      simp only [secOf]
      split
      · exact objectSec_ok _ _ _ _
      · exact objectSec_ok _ _ _ _
      · exact localSec_ok _ _
    | initCon g => exact objectSec_ok _ _ _ _
    | store g =>
      simp only [secOf]
      split
      · exact localSec_ok _ _
      · exact localSec_ok _ _
      · exact storeSec_ok _ _ _
    | storeBl g =>
      simp only [secOf]
      split
      · exact blSec_ok _ _ _
      · exact blSec_ok _ _ _
      · exact localSec_ok _ _
    | storeNote g =>
      simp only [secOf]
      split
      · exact initConvSec_ok _ _ _
      · exact initConvSec_ok _ _ _
      · exact initConvSec_ok _ _ _
      · exact initConvSec_ok _ _ _
      · exact localSec_ok _ _
    | sendPeers g => exact localSec_ok _ _
    | sendOwner g => exact localSec_ok _ _
    | arm g => exact localSec_ok _ _
    | signBlk g => exact blSec_ok _ _ _
    | sign g => exact localSec_ok _ _
    | conCount g => exact countSec_ok _ _ _ _
    | fragFull g => exact countSec_ok _ _ _ _
    | fragStore g => exact readStoreSec_ok _ cf g _
    | fragGen g => exact listSec_ok _ _ _ _
    | fullBlk g => exact blSec_ok _ _ _
    | fullCount g => exact countSec_ok _ _ _ _
    | fullNote => exact convSec_ok _ cf _
    | notify n x => exact notifySec_ok _ cf n x
    | request n x => exact requestSec_ok _ cf n x
    | save =>
      refine ⟨.nil, .inr ⟨by simp, fun _ _ => rfl⟩, fun _ => ⟨.inr ⟨by simp, fun _ _ => rfl⟩, fun _ =>
        ⟨.inr ⟨by simp, fun _ _ => rfl⟩, fun _ => trivial⟩⟩⟩
    | wipe => exact localSec_ok _ _

end
end Locks
end CTng
