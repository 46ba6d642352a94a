import Verif.Proofs.NetworkConc
/- The invariant of one gossiper with goroutines during one round. -/
set_option autoImplicit false

namespace CTng
variable {L : Lib}

section
variable (cf : GConf L) (pub : L.BlsSec → L.BlsPub) (R : Round)

/-- The object at a program point is no obstacle to the round. -/
def FrameOK : Frame → Prop
  | .recv _ g | .recon g | .handle g | .blk g | .initFull g | .initFrag g | .initMal g | .initCon g | .store g | .conCount g
  | .fragFull g | .fragStore g | .fragGen g | .fullBlk g | .fullCount g | .sendPeers g => MsgOK cf.crypto pub R g
  | .storeBl g | .storeNote g => MsgOK cf.crypto pub R g ∧ (g.type = R.kind.init → InitOK R g)
  | .arm g | .signBlk g | .sign g => g.type = R.kind.init → InitOK R g
  | .sendOwner _ | .fullNote | .notify _ _ | .request _ _ | .save | .wipe => True

/-- Program points on the way to a FULL object of the round. -/
def FullF (f : Frame) : Prop :=
  (∃ g, g.type = R.kind.frag ∧ g.getID = R.key ∧ f = .fragGen g) ∨
  ∃ o, GoodFull cf R o ∧ (f = .handle o ∨ f = .blk o ∨ f = .fullBlk o ∨ f = .fullCount o ∨ f = .store o)

def FullDue (c : CState) : Prop :=
  c.g.blacklist.has R.pay.p0 = true ∨ HasFull c.g R.kind.full R.pay.p0 ∨ ∃ f, FullF cf R f ∧ Under cf R c f

/-- Program points that lead to a fragment with signature pair `σ` being kept. -/
def FragF (σ : Sig2) (f : Frame) : Prop :=
  ∃ q : GossipObj, q.sig = σ ∧ q.type = R.kind.frag ∧ q.getID = R.key ∧
    ((∃ n, f = .recv n q) ∨ f = .recon q ∨ f = .handle q ∨ f = .blk q ∨ f = .fragFull q ∨ f = .fragStore q)

def FragDue (σ : Sig2) (c : CState) : Prop :=
  Arrived cf R.pay.p0 R.kind.frag R.key σ c.g ∨ ∃ f, FragF R σ f ∧ Under cf R c f

/-- Program points that lead to the statement of the round being signed. -/
def OwnF (f : Frame) : Prop :=
  ∃ g : GossipObj, g.getID = R.key0 ∧ (f = .storeBl g ∨ f = .storeNote g ∨ f = .arm g ∨ f = .signBlk g ∨ f = .sign g)

def OwnDue (c : CState) : Prop :=
  c.g.blacklist.has R.pay.p0 = true ∨ (∃ g ∈ c.g.timers, g.getID = R.key0) ∨ (∃ f, OwnF R f ∧ Under cf R c f) ∨
  ∃ σ, OwnSig cf.crypto R σ ∧ FragDue cf R σ c

/-- What is still to be done about a FULL object that is held. -/
def SentDue (c : CState) (o : GossipObj) : Prop :=
  Under cf R c (.storeBl o) ∨ ((R.kind = .acc → c.g.blacklist.has R.pay.p0 = true) ∧
    (.owner o ∈ c.g.out ∨ Under cf R c (.storeNote o) ∨ Under cf R c (.sendOwner o)))

/-- One gossiper during the round. -/
structure CNode (c : CState) : Prop where
  ok : NodeOK cf pub R c.g
  frames : ∀ f, HasFrame c f → FrameOK cf pub R f
  gen : ∀ g, HasFrame c (.fragGen g) → g.type = R.kind.frag → g.getID = R.key →
    cf.crypto.threshold ≤ ((c.g.storage.fragList R.kind.frag R.key).length : Int)
  noWipe : ¬ HasFrame c .wipe
  full : cf.crypto.threshold ≤ ((c.g.storage.fragList R.kind.frag R.key).length : Int) → FullDue cf R c
  own : (c.g.storage.objs R.kind.init).has R.key0 = true → OwnDue cf R c
  sent : ∀ k o, (c.g.storage.objs R.kind.full).get k = some o → o.payload.p0 = R.pay.p0 → SentDue cf R c o

/-- What is needed of the gossiper's surroundings. -/
structure Env : Prop where
  json : L.JsonLaws
  bls : L.BlsLaws pub
  signer : SignerOK cf pub R
  entity : R.pay.p0 ≠ []
  threshold : 0 < cf.crypto.threshold
end

section
variable {cf : GConf L} {pub : L.BlsSec → L.BlsPub} {R : Round} {c c' : CState} {e : Clock × CEvent}

theorem Kind.full_isObj (k : Kind) : k.full.isObj = true := by cases k <;> rfl
theorem Kind.frag_ne_init (k k' : Kind) : k.frag ≠ k'.init := by cases k <;> cases k' <;> simp [Kind.frag, Kind.init]
theorem Kind.frag_ne_full (k k' : Kind) : k.frag ≠ k'.full := by cases k <;> cases k' <;> simp [Kind.frag, Kind.full]
theorem Kind.full_ne_init (k k' : Kind) : k.full ≠ k'.init := by cases k <;> cases k' <;> simp [Kind.full, Kind.init]
theorem key_type (R : Round) : R.key.type = R.kind.frag := rfl

/-- Kept fragments of the round are genuine. -/
theorem CNode.genuine (hn : NodeOK cf pub R c.g) (hs : Sound cf c) :
    ∀ f ∈ c.g.storage.fragList R.kind.frag R.key, GenuineFrag cf.crypto pub R.pay f := by
  intro f hf
  have := (hs.storage.frags _ _ f hf).1
  exact (hn.frags _ f hf (congrArg GossipID.entity this)).2

/-- A full list gives a FULL object of the round. -/
theorem gen_full (hE : Env cf pub R) (hn : NodeOK cf pub R c.g) (hs : Sound cf c)
    (hl : cf.crypto.threshold ≤ ((c.g.storage.fragList R.kind.frag R.key).length : Int)) (clk : Clock) {g : GossipObj}
    (ht : g.type = R.kind.frag) (hid : g.getID = R.key) :
    ∃ o, GoodFull cf R o ∧ (stepFrame cf clk c.g (.fragGen g)).2 = some [.handle o] := by
  have hne : c.g.storage.fragList R.kind.frag R.key ≠ [] := by
    intro h; rw [h] at hl; have := hE.threshold; simp at hl; omega
  have hfr : g.type.isFrag = true := by rw [ht]; exact R.kind.frag_isFrag
  obtain ⟨o, h1, h2, h3, h4⟩ := generateFULL_genuine hE.json hE.bls hE.signer.bls clk R.pay hE.entity _ hne hl
    (CNode.genuine hn hs) g.getTargetType (getTargetType_isFull hfr)
  refine ⟨o, ⟨?_, h2, h3⟩, ?_⟩
  · rw [h4, getTargetType_frag hfr, ht]; cases R.kind <;> rfl
  · simp only [stepFrame, getObjectList, hid, ht, h1]

theorem afterStore_full {o : GossipObj} (b : Bool) (h : o.type.isFull = true) : afterStore o b = [.sendOwner o, .fullNote] := by
  unfold afterStore; cases ht : o.type <;> simp_all [GType.isFull]

theorem CNode.calm (hE : Env cf pub R) (hI : CNode cf pub R c) (hs : Sound cf c) (clk : Clock) : SmoothStep cf R clk c := by
  intro x hx hc
  cases x with
  | sendPeers g => exact ⟨[], rfl, by simp⟩
  | sendOwner g => exact ⟨[], rfl, by simp⟩
  | fullNote => exact ⟨[], rfl, by simp⟩
  | storeBl o => exact ⟨_, rfl, by intro y hy; simp at hy; subst hy; exact hc⟩
  | storeNote o =>
    refine ⟨_, rfl, ?_⟩
    rw [afterStore_full true hc]
    intro y hy; simp at hy; rcases hy with rfl | rfl <;> trivial
  | handle o =>
    refine ⟨_, rfl, ?_⟩
    intro y hy
    split at hy <;> simp at hy
    subst hy; exact hc
  | blk o =>
    have hc' : GoodFull cf R o := hc
    have hf : o.type.isFull = true := by rw [hc'.type]; exact R.kind.full_isFull
    refine ⟨_, rfl, ?_⟩
    intro y hy
    split at hy
    · cases hy
    · have : y = .fullBlk o := by cases ht : o.type <;> simp_all [GType.isFull]
      subst this; exact hc
  | fullBlk o =>
    refine ⟨_, rfl, ?_⟩
    intro y hy
    split at hy <;> simp at hy
    subst hy; exact hc
  | fullCount o =>
    refine ⟨_, rfl, ?_⟩
    intro y hy
    split at hy <;> simp at hy <;> subst hy
    · exact hc
    · trivial
  | store o =>
    have hc' : GoodFull cf R o := hc
    have hf : o.type.isFull = true := by rw [hc'.type]; exact R.kind.full_isFull
    simp only [stepFrame, hc'.ok]
    rcases hl : storeLocked { c.g with timerlist := c.g.timerlist ++ [clk.second] } o with ⟨s1, b⟩
    cases b
    · refine ⟨_, rfl, ?_⟩
      rw [afterStore_full false hf]
      intro y hy; simp at hy; rcases hy with rfl | rfl <;> trivial
    · exact ⟨_, rfl, by intro y hy; simp at hy; subst hy; exact hf⟩
  | fragGen g =>
    obtain ⟨h1, h2⟩ : g.type = R.kind.frag ∧ g.getID = R.key := hc
    obtain ⟨o, ho, hst⟩ := gen_full hE hI.ok hs (hI.gen g hx h1 h2) clk h1 h2
    exact ⟨_, hst, by intro y hy; simp at hy; subst hy; exact ho⟩
  | _ => exact absurd hc (by simp [Smooth])

/-! ### The round stays clean -/

theorem NodeOK.sstep {s : GState} {f : Frame} {s' : GState} (h : NodeOK cf pub R s) (hf : FrameOK cf pub R f) (hw : f ≠ .wipe)
    (hS : SStep cf s f s'.storage) (ht : ∀ g ∈ s'.timers, g ∈ s.timers ∨ f = .arm g) : NodeOK cf pub R s' := by
  have htm : ∀ g ∈ s'.timers, g.type = R.kind.init → InitOK R g := by
    intro g hg
    rcases ht g hg with h1 | rfl
    · exact h.timers g h1
    · exact hf
  generalize hst : s'.storage = st at hS
  cases hS with
  | same =>
    exact ⟨by rw [hst]; exact h.init, htm, by rw [hst]; exact h.frags, by rw [hst]; exact h.fulls, by rw [hst]; exact h.payload⟩
  | payload n g hv hty _ =>
    refine ⟨?_, htm, ?_, ?_, ?_⟩ <;> rw [hst]
    · intro k o ho; refine h.init k o ?_; revert ho; cases R.kind <;> exact id
    · intro k o ho; refine h.frags k o ?_; revert ho; cases R.kind <;> exact id
    · intro k o ho; refine h.fulls k o ?_; revert ho; cases R.kind <;> exact id
    · intro hk k o ho
      simp only [GoMap.get_set] at ho
      split at ho
      · cases ho; exact MsgOK.init hf (by rw [hty, hk]; rfl) hv
      · exact h.payload hk k o ho
  | put g hv hobj _ =>
    refine ⟨?_, htm, ?_, ?_, ?_⟩ <;> rw [hst]
    · intro k o ho
      by_cases e : R.kind.init = g.type
      · rw [e, Storage.objs_putObj_same _ _ _ _ hobj, GoMap.get_set] at ho
        split at ho
        · cases ho; exact MsgOK.init hf e.symm hv
        · rw [← e] at ho; exact h.init k o ho
      · rw [Storage.objs_putObj_ne _ _ _ e] at ho; exact h.init k o ho
    · intro k o ho; simp at ho; exact h.frags k o ho
    · intro k o ho
      by_cases e : R.kind.full = g.type
      · rw [e, Storage.objs_putObj_same _ _ _ _ hobj, GoMap.get_set] at ho
        split at ho
        · cases ho; exact MsgOK.full hf e.symm hv
        · rw [← e] at ho; exact h.fulls k o ho
      · rw [Storage.objs_putObj_ne _ _ _ e] at ho; exact h.fulls k o ho
    · intro hk k o ho; simp at ho; exact h.payload hk k o ho
  | frag g hfr _ =>
    have hap := h.append g hf hfr
    exact ⟨by rw [hst]; exact hap.init, htm, by rw [hst]; exact hap.frags, by rw [hst]; exact hap.fulls, by rw [hst]; exact hap.payload⟩
  | wipe => exact absurd rfl hw

theorem getREV_ok {s : GState} (h : NodeOK cf pub R s) (hI : StorageInv cf s.storage) {k : GossipID} {o : GossipObj}
    (hg : s.storage.revPayload.get k = some o) : MsgOK cf.crypto pub R o := by
  obtain ⟨_, h2, _⟩ := hI.payload _ _ hg
  by_cases hk : R.kind = .rev
  · refine ⟨fun _ _ => h.payload hk _ o hg, ?_, ?_⟩
    · intro e; rw [h2, hk] at e; cases e
    · intro e; rw [h2, hk] at e; cases e
  · refine .other ?_ ?_ ?_ <;> rw [h2] <;> (cases hk' : R.kind <;> simp_all [Kind.init, Kind.frag, Kind.full])

/-- New program points are no obstacle to the round. -/
theorem frame_new (hE : Env cf pub R) {s : GState} (h : NodeOK cf pub R s) (clk : Clock) (f : Frame)
    (hwt : f.wt) (hf : FrameOK cf pub R f) (new : List Frame) (hnew : (stepFrame cf clk s f).2 = some new) :
    ∀ f' ∈ new, FrameOK cf pub R f' := by
  have aft : ∀ g b, MsgOK cf.crypto pub R g → (b = true → g.type = R.kind.init → InitOK R g) → ∀ f' ∈ afterStore g b, FrameOK cf pub R f' := by
    intro g b h1 h2 f' hf'
    unfold afterStore at hf'
    cases b <;> split at hf' <;> simp at hf' <;>
      (try (rcases hf' with rfl | rfl | rfl)) <;> (try (rcases hf' with rfl | rfl)) <;> (try subst hf') <;>
      first | trivial | exact h1 | exact h2 rfl
  have con : ∀ a b : GossipObj, MsgOK cf.crypto pub R (generateCON clk a b) := by
    intro a b
    obtain ⟨x, y, z⟩ := R.kind.ne_con
    exact .other x y z
  intro f' hm
  cases f with
  | recv n g =>
    simp only [stepFrame] at hnew
    split at hnew <;> simp at hnew
    subst hnew; simp at hm; subst hm; exact hf
  | recon g =>
    simp only [stepFrame, Option.some.injEq] at hnew; subst hnew
    simp at hm; subst hm
    show MsgOK _ _ _ _
    by_cases hrf : cf.optMode = true ∧ g.type = .REV_FRAG
    · rw [if_pos hrf]
      have hk : R.kind ≠ .rev := by
        intro hk; have := (hE.signer.unopt hk).1; rw [hrf.1] at this; cases this
      refine .other ?_ ?_ ?_ <;> simp only [reconstructPayload, hrf.2] <;>
        (cases hk' : R.kind <;> simp_all [Kind.init, Kind.frag, Kind.full])
    · rw [if_neg hrf]; exact hf
  | handle g =>
    simp only [stepFrame, Option.some.injEq] at hnew; subst hnew
    split at hm <;> simp at hm
    subst hm; exact hf
  | blk g =>
    simp only [stepFrame, Option.some.injEq] at hnew; subst hnew
    split at hm
    · cases hm
    · split at hm <;> simp at hm <;> subst hm <;> exact hf
  | initFull g =>
    simp only [stepFrame, Option.some.injEq] at hnew; subst hnew
    split at hm <;> simp at hm
    subst hm; exact hf
  | initFrag g =>
    simp only [stepFrame, Option.some.injEq] at hnew; subst hnew
    split at hm
    · cases hm
    · split at hm <;> simp at hm <;> subst hm <;> exact hf
  | initMal g =>
    simp only [stepFrame, Option.some.injEq] at hnew; subst hnew
    split at hm <;> simp at hm <;> subst hm <;> exact hf
  | initCon g =>
    simp only [stepFrame, Option.some.injEq] at hnew; subst hnew
    simp at hm; subst hm; exact con _ _
  | store g =>
    simp only [stepFrame] at hnew
    split at hnew
    · cases hnew
    · simp at hnew; subst hnew; exact aft g false hf (by simp) f' hm
    · rename_i hv
      split at hnew
      · simp at hnew; subst hnew; exact aft g false hf (by simp) f' hm
      · simp at hnew; subst hnew; simp at hm; subst hm
        exact ⟨hf, fun h' => MsgOK.init hf h' hv⟩
  | storeBl g =>
    simp only [stepFrame, Option.some.injEq] at hnew; subst hnew
    simp at hm; subst hm; exact hf
  | storeNote g =>
    simp only [stepFrame, Option.some.injEq] at hnew; subst hnew
    exact aft g true hf.1 (fun _ => hf.2) f' hm
  | signBlk g =>
    simp only [stepFrame, Option.some.injEq] at hnew; subst hnew
    split at hm <;> simp at hm
    subst hm; exact hf
  | sign g =>
    simp only [stepFrame, signStatement] at hnew
    cases hg : generateFRAG cf g with
    | none => rw [hg] at hnew; cases hnew
    | some q =>
      rw [hg] at hnew; simp at hnew; subst hnew; simp at hm; subst hm
      exact signed_ok hE.signer.toKeyed hwt hf hg
  | conCount g =>
    simp only [stepFrame, Option.some.injEq] at hnew; subst hnew
    split at hm <;> simp at hm
    subst hm; exact hf
  | fragFull g =>
    simp only [stepFrame, Option.some.injEq] at hnew; subst hnew
    split at hm <;> simp at hm
    subst hm; exact hf
  | fragStore g =>
    simp only [stepFrame, Option.some.injEq] at hnew; subst hnew
    rcases List.mem_append.1 hm with h1 | h1 <;> split at h1 <;> simp at h1 <;> subst h1 <;> exact hf
  | fragGen g =>
    simp only [stepFrame] at hnew
    split at hnew
    · cases hnew
    · rename_i o hgen
      simp at hnew; subst hnew; simp at hm; subst hm
      have ht : g.type.isFrag = true := hwt
      have hot : o.type.isFull = true := by rw [generateFULL_type hgen]; exact getTargetType_isFull ht
      have hoty : o.type = fragTarget g.type := by rw [generateFULL_type hgen]; exact getTargetType_frag ht
      refine ⟨?_, ?_, ?_⟩
      · intro e; rw [e] at hot; cases hk : R.kind <;> rw [hk] at hot <;> cases hot
      · intro e; rw [e] at hot; cases hk : R.kind <;> rw [hk] at hot <;> cases hot
      · intro e _ hx
        obtain ⟨q, hq, e'⟩ := generateFULL_payload hgen
        have e1 : g.type = R.kind.frag := by
          rw [hoty] at e
          cases hk : R.kind <;> rw [hk] at e <;> cases hgt : g.type <;> rw [hgt] at e ht <;>
            simp_all [fragTarget, Kind.full, Kind.frag, GType.isFrag]
        rw [e'] at hx ⊢
        unfold getObjectList at hq
        rw [e1] at hq
        exact (h.frags _ q hq hx).2.1
  | fullBlk g =>
    simp only [stepFrame, Option.some.injEq] at hnew; subst hnew
    split at hm <;> simp at hm
    subst hm; exact hf
  | fullCount g =>
    simp only [stepFrame, Option.some.injEq] at hnew; subst hnew
    split at hm <;> simp at hm <;> subst hm
    · exact hf
    · trivial
  | _ => simp only [stepFrame, Option.some.injEq] at hnew; subst hnew; cases hm

/-- What one program point posts is no obstacle to the round. -/
theorem posts_ok (hE : Env cf pub R) {s : GState} (h : NodeOK cf pub R s) (hI : StorageInv cf s.storage) (clk : Clock) (f : Frame)
    (hf : FrameOK cf pub R f) (m : Msg) (hm : m ∈ postsOf ((stepFrame cf clk s f).1.out.drop s.out.length)) (q : GossipObj)
    (hq : m.body = .obj q) : MsgOK cf.crypto pub R q := by
  obtain ⟨o, ho, e⟩ := stepFrame_out cf clk s f
  rw [e, List.drop_left] at hm
  cases ho with
  | none => simp [postsOf] at hm
  | signed g f _ => simp [postsOf] at hm
  | full g o _ => simp [postsOf] at hm
  | owner g => simp [postsOf] at hm
  | announce g _ _ =>
    simp [postsOf] at hm
    obtain ⟨u, _, rfl⟩ := hm
    cases hq
  | forward g g' hg' _ =>
    simp [postsOf] at hm
    obtain ⟨u, _, rfl⟩ := hm
    simp only [Body.obj.injEq] at hq
    subst hq
    rw [hg']
    split
    · rename_i hc
      by_cases hk : R.kind = .rev
      · have := (hE.signer.unopt hk).2 g; omega
      · have ht : (removePayload g).type = .REV_FRAG := hc.2
        refine .other ?_ ?_ ?_ <;> rw [ht] <;> (cases hk' : R.kind <;> simp_all [Kind.init, Kind.frag, Kind.full])
    · exact hf
  | ask n x => simp [postsOf] at hm; subst hm; cases hq
  | answer n x o ho hne =>
    simp [postsOf] at hm; subst hm
    simp only [Body.obj.injEq] at hq
    subst hq
    unfold getREVrequested at ho
    simp only at ho
    cases hg : s.storage.revPayload.get ⟨x.period, .REV_INIT, x.entity⟩ with
    | none => rw [hg] at ho; subst ho; exact absurd rfl hne
    | some o' => rw [hg] at ho; simp at ho; subst ho; exact getREV_ok h hI hg

end
end CTng
