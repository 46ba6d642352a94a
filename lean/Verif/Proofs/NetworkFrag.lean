import Verif.Proofs.NetworkSerial
import Verif.Props.GossiperThreshold
/- What one sequentially executed request does to the statements of one round, and what it posts. -/
set_option autoImplicit false

namespace CTng
variable {L : Lib}

/-- Outcomes of handling a fragment. -/
inductive FragRes (cf : GConf L) (clk : Clock) (s : GState) (g : GossipObj) : GState → Prop
  | skip : FragRes cf clk s g s
  | low : dupCheck s g = false → s.blacklist.has g.payload.p0 = false →
      ((s.storage.fragList g.type g.getID).length : Int) + 1 < cf.crypto.threshold →
      FragRes cf clk s g (sendToGossipers cf { s with storage := s.storage.appendFrag g.type g.getID g } g)
  | panic : dupCheck s g = false → s.blacklist.has g.payload.p0 = false →
      ((s.storage.fragList g.type g.getID).length : Int) + 1 = cf.crypto.threshold →
      generateFULL cf clk (s.storage.fragList g.type g.getID ++ [g]) g.getTargetType = none →
      FragRes cf clk s g { s with storage := s.storage.appendFrag g.type g.getID g }
  | gen (o : GossipObj) (s2 : GState) (b : Bool) : dupCheck s g = false → s.blacklist.has g.payload.p0 = false →
      ((s.storage.fragList g.type g.getID).length : Int) + 1 = cf.crypto.threshold →
      generateFULL cf clk (s.storage.fragList g.type g.getID ++ [g]) g.getTargetType = some o →
      handle cf clk (({ s with storage := s.storage.appendFrag g.type g.getID g } : GState).emit [.generatedFull g.getID o]) o = (s2, b) →
      FragRes cf clk s g (if b then s2 else sendToGossipers cf s2 g)

theorem handle_frag_res (cf : GConf L) (clk : Clock) (s : GState) (g : GossipObj) (hg : g.type.isFrag = true) :
    FragRes cf clk s g (handle cf clk s g).1 := by
  rw [handle_frag cf clk hg]
  split
  · exact .skip
  · rename_i hd
    split
    · exact .skip
    · rename_i hb
      have hd : dupCheck s g = false := by simpa using hd
      have hb : s.blacklist.has g.payload.p0 = false := by simpa [inBlacklist] using hb
      unfold handleFrag
      split
      · exact .skip
      · rw [readAndStore_frag cf hg]
        by_cases hl : ((s.storage.fragList g.type g.getID).length : Int) < cf.crypto.threshold
        · rw [if_pos hl]
          simp only [hl, if_true]
          by_cases hc : ((s.storage.fragList g.type g.getID).length : Int) = cf.crypto.threshold - 1
          · rw [if_pos hc]
            simp only [getObjectList, Storage.fragList_appendFrag_same _ _ _ _ hg]
            cases hgen : generateFULL cf clk (s.storage.fragList g.type g.getID ++ [g]) g.getTargetType with
            | none => exact .panic hd hb (by omega) hgen
            | some o =>
              simp only
              rcases hr : handle cf clk (({ s with storage := s.storage.appendFrag g.type g.getID g } : GState).emit
                [.generatedFull g.getID o]) o with ⟨s2, b⟩
              have := FragRes.gen o s2 b hd hb (by omega) hgen hr
              cases b <;> exact this
          · rw [if_neg hc]
            exact .low hd hb (by omega)
        · have hne : ¬ (((s.storage.fragList g.type g.getID).length : Int) = cf.crypto.threshold - 1) := by omega
          simp only [hne, hl, if_false]
          exact .skip

/-- The payload of a FULL object is that of one of the fragments. -/
theorem generateFULL_payload {cf : GConf L} {clk : Clock} {gs : List GossipObj} {t : GType} {o : GossipObj}
    (h : generateFULL cf clk gs t = some o) : ∃ f ∈ gs, o.payload = f.payload := by
  cases gs with
  | nil =>
    unfold generateFULL at h
    split at h
    · cases h
    · cases h
    · split at h
      · rename_i e; cases e
      · cases h
  | cons g0 rest =>
    refine ⟨g0, by simp, ?_⟩
    unfold generateFULL at h
    split at h
    · cases h
    · cases h
    · split at h
      · rename_i e; cases e; cases h; rfl
      · cases h

/-- A FULL object that verifies is handled without panic. -/
theorem handle_full_nopanic (cf : GConf L) (clk : Clock) (s : GState) (o : GossipObj) (ht : o.type.isFull = true)
    (hv : o.verify cf.crypto = .ok) : (handle cf clk s o).2 = false := by
  have hobj : o.type.isObj = true := by cases h : o.type <;> simp_all [GType.isFull, GType.isObj]
  rw [handle_full cf clk ht]
  split
  · rfl
  · rename_i hd
    split
    · rfl
    · rename_i hb
      unfold handleFull
      rw [if_neg hb]
      split
      · rcases storeGossipObject_cases cf clk s o hobj (by simpa using hd) with ⟨h, _⟩ | ⟨⟨e, h⟩, _⟩ | ⟨_, h⟩
        · rw [hv] at h; cases h
        · rw [hv] at h; cases h
        · simp only [h]
      · rfl

/-! ### One round -/

/-- The kinds of statements that are threshold-signed. -/
inductive Kind where
  | sth
  | rev
  | acc
  deriving DecidableEq

def Kind.init : Kind → GType
  | .sth => .STH_INIT
  | .rev => .REV_INIT
  | .acc => .ACC_INIT

def Kind.frag : Kind → GType
  | .sth => .STH_FRAG
  | .rev => .REV_FRAG
  | .acc => .ACC_FRAG

def Kind.full : Kind → GType
  | .sth => .STH_FULL
  | .rev => .REV_FULL
  | .acc => .ACC_FULL

/-- A round: one statement about the entity `pay.p0` in a period. -/
structure Round where
  kind : Kind
  period : Str
  pay : Pay3

def Round.key0 (R : Round) : GossipID := ⟨R.period, R.kind.init, R.pay.p0⟩
def Round.key (R : Round) : GossipID := ⟨R.period, R.kind.frag, R.pay.p0⟩

def InitOK (R : Round) (o : GossipObj) : Prop := o.payload.p0 = R.pay.p0 → o.payload = R.pay ∧ o.period = R.period
def FragOK (c : CryptoConfig L) (pub : L.BlsSec → L.BlsPub) (R : Round) (o : GossipObj) : Prop :=
  o.payload.p0 = R.pay.p0 → o.period = R.period ∧ GenuineFrag c pub R.pay o
def FullOK (R : Round) (o : GossipObj) : Prop := o.payload.p0 = R.pay.p0 → o.payload = R.pay

/-- An object posted to a gossiper is no obstacle to the round: statements about the entity that verify are the round's
statement, and fragments about the entity are genuine fragments of it. -/
structure MsgOK (c : CryptoConfig L) (pub : L.BlsSec → L.BlsPub) (R : Round) (o : GossipObj) : Prop where
  init : o.type = R.kind.init → o.verify c = .ok → InitOK R o
  frag : o.type = R.kind.frag → FragOK c pub R o
  full : o.type = R.kind.full → o.verify c = .ok → FullOK R o

theorem MsgOK.other {c : CryptoConfig L} {pub : L.BlsSec → L.BlsPub} {R : Round} {o : GossipObj} (h1 : o.type ≠ R.kind.init)
    (h2 : o.type ≠ R.kind.frag) (h3 : o.type ≠ R.kind.full) : MsgOK c pub R o :=
  ⟨fun h => absurd h h1, fun h => absurd h h2, fun h => absurd h h3⟩

/-- What a gossiper holds about the entity belongs to the round. -/
structure NodeOK (cf : GConf L) (pub : L.BlsSec → L.BlsPub) (R : Round) (s : GState) : Prop where
  init : ∀ k o, (s.storage.objs R.kind.init).get k = some o → InitOK R o
  timers : ∀ g ∈ s.timers, g.type = R.kind.init → InitOK R g
  frags : ∀ k f, f ∈ s.storage.fragList R.kind.frag k → FragOK cf.crypto pub R f
  fulls : ∀ k o, (s.storage.objs R.kind.full).get k = some o → FullOK R o
  payload : R.kind = .rev → ∀ k o, s.storage.revPayload.get k = some o → InitOK R o

/-- The gossiper signs with a key that all know. -/
structure Keyed (cf : GConf L) (pub : L.BlsSec → L.BlsPub) : Prop where
  bls : cf.crypto.thresholdScheme = go!"bls"
  registered : cf.crypto.thresholdPublicMap.get cf.crypto.selfID = some (pub cf.crypto.thresholdSecretKey)
  safe : Safe cf.crypto.selfID

/-- The gossiper signs with a key that all know, and does not shorten what it posts about the round. -/
structure SignerOK (cf : GConf L) (pub : L.BlsSec → L.BlsPub) (R : Round) : Prop extends Keyed cf pub where
  unopt : R.kind = .rev → cf.optMode = false ∧ ∀ o, (cf.jsonLen o : Int) ≤ cf.optThreshold

/-- In a round of a revocation update: the mode of the optimisation, and without it nothing is shortened. -/
def Mode (cf : GConf L) (R : Round) (opt : Bool) : Prop :=
  R.kind = .rev → cf.optMode = opt ∧ (opt = false → ∀ o, (cf.jsonLen o : Int) ≤ cf.optThreshold)

theorem SignerOK.mode {cf : GConf L} {pub : L.BlsSec → L.BlsPub} {R : Round} (h : SignerOK cf pub R) : Mode cf R false :=
  fun hk => ⟨(h.unopt hk).1, fun _ => (h.unopt hk).2⟩

/-- What an object is shortened to when it is posted to other gossipers. -/
def wireObj (cf : GConf L) (g : GossipObj) : GossipObj :=
  if (cf.jsonLen g : Int) > cf.optThreshold ∧ g.type = .REV_FRAG then removePayload g else g

/-- An object posted to a gossiper is no obstacle to the round. With the optimisation the payload of a fragment is replaced. -/
def ArrOK (opt : Bool) (c : CryptoConfig L) (pub : L.BlsSec → L.BlsPub) (R : Round) (o : GossipObj) : Prop :=
  MsgOK c pub R (if opt = true ∧ R.kind = .rev ∧ o.type = .REV_FRAG ∧ o.payload.p0 = R.pay.p0 then { o with payload := R.pay } else o)

theorem arrOK_false {c : CryptoConfig L} {pub : L.BlsSec → L.BlsPub} {R : Round} {o : GossipObj} :
    ArrOK false c pub R o ↔ MsgOK c pub R o := by
  unfold ArrOK; rw [if_neg (by simp)]

theorem ArrOK.of {opt : Bool} {c : CryptoConfig L} {pub : L.BlsSec → L.BlsPub} {R : Round} {o : GossipObj} (h : MsgOK c pub R o) :
    ArrOK opt c pub R o := by
  unfold ArrOK
  split
  · rename_i hc
    have ht : o.type = R.kind.frag := by rw [hc.2.1]; exact hc.2.2.1
    have hp := (h.frag ht hc.2.2.2).2.1
    rw [← hp]; exact h
  · exact h

theorem ArrOK.not_frag {opt : Bool} {c : CryptoConfig L} {pub : L.BlsSec → L.BlsPub} {R : Round} {o : GossipObj}
    (ht : o.type ≠ .REV_FRAG) : ArrOK opt c pub R o ↔ MsgOK c pub R o := by
  unfold ArrOK; rw [if_neg (fun h => ht h.2.2.1)]

/-- From `s` to `s'`: the round stays clean, and new fragments of the round are posted to all connected gossipers. -/
structure Fwd (opt : Bool) (cf : GConf L) (pub : L.BlsSec → L.BlsPub) (R : Round) (s s' : GState) : Prop where
  ok : NodeOK cf pub R s'
  out : ∃ o, s'.out = s.out ++ o ∧ (∀ m ∈ postsOf o, ∀ q, m.body = .obj q → ArrOK opt cf.crypto pub R q) ∧
    ∀ k f, f ∈ s'.storage.fragList R.kind.frag k → f.payload.p0 = R.pay.p0 → f ∉ s.storage.fragList R.kind.frag k →
      ∀ u ∈ cf.connected, ⟨u, endpointOf R.kind.frag, .obj (wireObj cf f)⟩ ∈ postsOf o

section
variable {cf : GConf L} {pub : L.BlsSec → L.BlsPub} {R : Round} {opt : Bool}

theorem postsOf_append (a b : List Out) : postsOf (a ++ b) = postsOf a ++ postsOf b := by simp [postsOf]

theorem Fwd.trans {a b c : GState} (h1 : Fwd opt cf pub R a b) (h2 : Fwd opt cf pub R b c) : Fwd opt cf pub R a c := by
  obtain ⟨o1, e1, m1, f1⟩ := h1.out
  obtain ⟨o2, e2, m2, f2⟩ := h2.out
  refine ⟨h2.ok, o1 ++ o2, by rw [e2, e1]; simp, ?_, ?_⟩
  · intro m hm
    rw [postsOf_append] at hm
    rcases List.mem_append.1 hm with h | h
    · exact m1 m h
    · exact m2 m h
  · intro k f hf hp hn u hu
    rw [postsOf_append]
    by_cases hb : f ∈ b.storage.fragList R.kind.frag k
    · exact List.mem_append_left _ (f1 k f hb hp hn u hu)
    · exact List.mem_append_right _ (f2 k f hf hp hb u hu)

/-- A change that touches nothing of the round. -/
theorem Fwd.same {s s' : GState} (h : NodeOK cf pub R s) (h1 : s'.storage.objs R.kind.init = s.storage.objs R.kind.init)
    (h2 : ∀ k, s'.storage.fragList R.kind.frag k = s.storage.fragList R.kind.frag k)
    (h3 : s'.storage.objs R.kind.full = s.storage.objs R.kind.full) (h4 : s'.storage.revPayload = s.storage.revPayload)
    (h5 : ∀ g ∈ s'.timers, g ∈ s.timers) (o : List Out) (h6 : s'.out = s.out ++ o)
    (h7 : ∀ m ∈ postsOf o, ∀ q, m.body = .obj q → ArrOK opt cf.crypto pub R q) : Fwd opt cf pub R s s' := by
  refine ⟨⟨?_, ?_, ?_, ?_, ?_⟩, o, h6, h7, ?_⟩
  · rw [h1]; exact h.init
  · exact fun g hg => h.timers g (h5 g hg)
  · intro k f hf; rw [h2] at hf; exact h.frags k f hf
  · rw [h3]; exact h.fulls
  · rw [h4]; exact h.payload
  · intro k f hf _ hn; rw [h2] at hf; exact absurd hf hn

theorem Fwd.refl {s : GState} (h : NodeOK cf pub R s) : Fwd opt cf pub R s s :=
  .same h rfl (fun _ => rfl) rfl rfl (fun _ h => h) [] (by simp) (by simp [postsOf])

theorem Kind.init_isInit (k : Kind) : k.init.isInit = true := by cases k <;> rfl
theorem Kind.frag_isFrag (k : Kind) : k.frag.isFrag = true := by cases k <;> rfl
theorem Kind.full_isFull (k : Kind) : k.full.isFull = true := by cases k <;> rfl
theorem Kind.init_isObj (k : Kind) : k.init.isObj = true := by cases k <;> rfl

/-- Posting to the connected gossipers. -/
theorem Fwd.peers {s : GState} (h : NodeOK cf pub R s) (hMo : Mode cf R opt) (g : GossipObj)
    (hg : MsgOK cf.crypto pub R g) : Fwd opt cf pub R s (sendToGossipers cf s g) ∧
    (g.type = R.kind.frag → ∀ u ∈ cf.connected, ∃ o, (sendToGossipers cf s g).out = s.out ++ o ∧
      ⟨u, endpointOf R.kind.frag, .obj (wireObj cf g)⟩ ∈ postsOf o) := by
  have key : ∃ o, (sendToGossipers cf s g).out = s.out ++ o ∧ (∀ m ∈ postsOf o, ∀ q, m.body = .obj q → ArrOK opt cf.crypto pub R q) ∧
      (g.type = R.kind.frag → ∀ u ∈ cf.connected, ⟨u, endpointOf R.kind.frag, .obj (wireObj cf g)⟩ ∈ postsOf o) := by
    unfold sendToGossipers
    simp only
    split
    · rename_i hc
      refine ⟨_, rfl, ?_, ?_⟩
      · intro m hm q hq
        unfold postsOf at hm
        simp at hm
        obtain ⟨u, _, rfl⟩ := hm
        cases hq
      · intro ht; rw [ht] at hc; have := hc.2; cases hk : R.kind <;> rw [hk] at this <;> cases this
    · refine ⟨_, rfl, ?_, ?_⟩
      · intro m hm q hq
        unfold postsOf at hm
        simp at hm
        obtain ⟨u, _, rfl⟩ := hm
        simp only [Body.obj.injEq] at hq
        subst hq
        split
        · rename_i hc
          by_cases hk : R.kind = .rev
          · cases opt with
            | false => have := (hMo hk).2 rfl g; omega
            | true =>
              unfold ArrOK
              have ht : (removePayload g).type = .REV_FRAG := hc.2
              split
              · rename_i hd
                have hd' : g.payload.p0 = R.pay.p0 := hd.2.2.2
                have ht' : g.type = R.kind.frag := by rw [hk]; exact hc.2
                have e : { removePayload g with payload := R.pay } = g := by
                  rw [← (hg.frag ht' hd').2.1]; rfl
                rw [e]; exact hg
              · rename_i hd
                refine ⟨?_, ?_, ?_⟩
                · intro e; rw [ht, hk] at e; cases e
                · intro _ e; exact absurd ⟨rfl, hk, ht, e⟩ hd
                · intro e; rw [ht, hk] at e; cases e
          · have ht : (removePayload g).type = .REV_FRAG := hc.2
            refine .of (.other ?_ ?_ ?_) <;> rw [ht] <;> (cases hk' : R.kind <;> simp_all [Kind.init, Kind.frag, Kind.full])
        · exact .of hg
      · intro ht u hu
        rw [ht]
        unfold postsOf wireObj
        simp [hu, ht]
  obtain ⟨o, h1, h2, h3⟩ := key
  refine ⟨.same h (by simp) (by simp) (by simp) (by simp) ?_ o h1 h2, fun ht u hu => ⟨o, h1, h3 ht u hu⟩⟩
  intro g' hg'
  unfold sendToGossipers at hg'
  simp only at hg'
  split at hg' <;> exact hg'

theorem postsOf_nopost {o : List Out} (h : ∀ x ∈ o, ∀ u r b, x ≠ .peer u r b) : postsOf o = [] := by
  unfold postsOf
  rw [List.filterMap_eq_nil_iff]
  intro x hx
  cases x with
  | peer u r b => exact absurd rfl (h _ hx u r b)
  | _ => rfl


theorem key_of_frag {s : GState} (hI : StorageInv cf s.storage) {t : GType} {k : GossipID} {f g : GossipObj}
    (hf : f ∈ s.storage.fragList t k) (hk : k = g.getID) : f.payload.p0 = g.payload.p0 := by
  have := (hI.frags t k f hf).1
  rw [hk] at this
  exact congrArg GossipID.entity this

/-- Storing a fragment, without posting it. -/
theorem NodeOK.append {s : GState} (h : NodeOK cf pub R s) (g : GossipObj) (hg : MsgOK cf.crypto pub R g)
    (hfr : g.type.isFrag = true) : NodeOK cf pub R { s with storage := s.storage.appendFrag g.type g.getID g } := by
  refine ⟨?_, h.timers, ?_, ?_, ?_⟩
  · intro k o ho; simp at ho; exact h.init k o ho
  · intro k f hf
    by_cases e : R.kind.frag = g.type ∧ k = g.getID
    · obtain ⟨e1, e2⟩ := e
      simp only [e1, e2, Storage.fragList_appendFrag_same _ _ _ _ hfr] at hf
      rcases List.mem_append.1 hf with hf | hf
      · rw [← e1] at hf; exact h.frags _ f hf
      · simp at hf; subst hf; exact hg.frag e1.symm
    · have e' : R.kind.frag ≠ g.type ∨ k ≠ g.getID := by by_cases h1 : R.kind.frag = g.type <;> simp_all
      simp only [Storage.fragList_appendFrag_ne _ _ e'] at hf
      exact h.frags k f hf
  · intro k o ho; simp at ho; exact h.fulls k o ho
  · intro hk k o ho
    refine h.payload hk k o ?_
    have : (s.storage.appendFrag g.type g.getID g).revPayload = s.storage.revPayload := by
      unfold Storage.appendFrag; split <;> rfl
    simp only [this] at ho
    exact ho

theorem mem_appendFrag {s : Storage} {g f : GossipObj} (hfr : g.type.isFrag = true) {t : GType} {k : GossipID}
    (h : f ∈ (s.appendFrag g.type g.getID g).fragList t k) : f ∈ s.fragList t k ∨ (f = g ∧ t = g.type ∧ k = g.getID) := by
  by_cases e : t = g.type ∧ k = g.getID
  · obtain ⟨e1, e2⟩ := e
    simp only [e1, e2, Storage.fragList_appendFrag_same _ _ _ _ hfr] at h
    rcases List.mem_append.1 h with h | h
    · rw [e1, e2]; exact .inl h
    · simp at h; exact .inr ⟨h, e1, e2⟩
  · have e' : t ≠ g.type ∨ k ≠ g.getID := by by_cases h1 : t = g.type <;> simp_all
    rw [Storage.fragList_appendFrag_ne _ _ e'] at h
    exact .inl h

@[simp] theorem revPayload_putObj (s : Storage) (t : GType) (k : GossipID) (o : GossipObj) :
    (s.putObj t k o).revPayload = s.revPayload := by unfold Storage.putObj; split <;> rfl

/-- Storing an object of the single-object maps. -/
theorem Fwd.stored {s : GState} (h : NodeOK cf pub R s) (clk : Clock) (g : GossipObj) (hobj : g.type.isObj = true)
    (hg : MsgOK cf.crypto pub R g) (hv : g.verify cf.crypto = .ok) : Fwd opt cf pub R s (storedState cf clk s g) := by
  refine ⟨⟨?_, ?_, ?_, ?_, ?_⟩, [], by simp, by simp [postsOf], ?_⟩
  · intro k o ho
    rw [storage_storedState] at ho
    by_cases e : R.kind.init = g.type
    · rw [e, Storage.objs_putObj_same _ _ _ _ hobj, GoMap.get_set] at ho
      split at ho
      · cases ho; exact hg.init e.symm hv
      · rw [← e] at ho; exact h.init k o ho
    · rw [Storage.objs_putObj_ne _ _ _ e] at ho; exact h.init k o ho
  · intro g' hg'; simp at hg'; exact h.timers g' hg'
  · intro k f hf; simp at hf; exact h.frags k f hf
  · intro k o ho
    rw [storage_storedState] at ho
    by_cases e : R.kind.full = g.type
    · rw [e, Storage.objs_putObj_same _ _ _ _ hobj, GoMap.get_set] at ho
      split at ho
      · cases ho; exact hg.full e.symm hv
      · rw [← e] at ho; exact h.fulls k o ho
    · rw [Storage.objs_putObj_ne _ _ _ e] at ho; exact h.fulls k o ho
  · intro hk k o ho; simp at ho; exact h.payload hk k o ho
  · intro k f hf _ hn; simp at hf; exact absurd hf hn

/-- Telling the owner. -/
theorem Fwd.owner {s : GState} (h : NodeOK cf pub R s) (g : GossipObj) : Fwd opt cf pub R s (sendToMonitor s g) :=
  .same h (by simp) (by simp) (by simp) (by simp) (fun _ hg => hg) [.owner g] rfl (by simp [postsOf])

theorem Fwd.note {s : GState} (h : NodeOK cf pub R s) (clk : Clock) : Fwd opt cf pub R s (noteConverge cf clk s) :=
  .same h (by simp) (by simp) (by simp) (by simp) (by simp) [] (by simp) (by simp [postsOf])

theorem Fwd.arm {s : GState} (h : NodeOK cf pub R s) (g : GossipObj) (hg : g.type = R.kind.init → InitOK R g) :
    Fwd opt cf pub R s { s with timers := s.timers ++ [g] } := by
  refine ⟨⟨h.init, ?_, h.frags, h.fulls, h.payload⟩, [], by simp, by simp [postsOf], fun k f hf _ hn => absurd hf hn⟩
  intro g' hg'
  rcases List.mem_append.1 hg' with hg' | hg'
  · exact h.timers g' hg'
  · simp at hg'; subst hg'; exact hg

/-- Handling a FULL object. -/
theorem Fwd.full {s : GState} (h : NodeOK cf pub R s) (clk : Clock) (g : GossipObj) (ht : g.type.isFull = true)
    (hg : MsgOK cf.crypto pub R g) : Fwd opt cf pub R s (handle cf clk s g).1 := by
  have hobj : g.type.isObj = true := by cases h : g.type <;> simp_all [GType.isFull, GType.isObj]
  rcases handle_full_cases cf clk s g ht with e | e | ⟨_, e⟩ | ⟨hv, _, _, e⟩ <;> rw [e]
  · exact .refl h
  · exact .note h clk
  · exact (Fwd.owner h g).trans (.note (Fwd.owner (opt := opt) h g).ok clk)
  · have h1 := Fwd.stored (opt := opt) h clk g hobj hg hv
    have h2 := Fwd.owner (opt := opt) h1.ok g
    exact (h1.trans h2).trans (.note h2.ok clk)

/-- Handling a fragment. -/
theorem Fwd.frag {s : GState} (h : NodeOK cf pub R s) (hI : StorageInv cf s.storage) (J : L.JsonLaws) (B : L.BlsLaws pub)
    (hS : Keyed cf pub) (hMo : Mode cf R opt) (hp : R.pay.p0 ≠ []) (clk : Clock) (g : GossipObj) (ht : g.type.isFrag = true)
    (hg : MsgOK cf.crypto pub R g) : Fwd opt cf pub R s (handle cf clk s g).1 := by
  have hres := handle_frag_res cf clk s g ht
  generalize (handle cf clk s g).1 = s' at hres ⊢
  have hap := h.append g hg ht
  -- posting completes the step
  have fin : ∀ s2 o2, NodeOK cf pub R s2 → s2.out = s.out ++ o2 → postsOf o2 = [] →
      (∀ k, s2.storage.fragList R.kind.frag k = (s.storage.appendFrag g.type g.getID g).fragList R.kind.frag k) →
      Fwd opt cf pub R s (sendToGossipers cf s2 g) := by
    intro s2 o2 h2 e1 e2 e3
    obtain ⟨hF, hposted⟩ := Fwd.peers h2 hMo g hg
    obtain ⟨o, e4, hm, _⟩ := hF.out
    refine ⟨hF.ok, o2 ++ o, by rw [e4, e1]; simp, ?_, ?_⟩
    · rw [postsOf_append, e2]; exact hm
    · intro k f hf hfp hn u hu
      simp only [storage_sendToGossipers, e3] at hf
      rcases mem_appendFrag ht hf with h' | ⟨rfl, h3, _⟩
      · exact absurd h' hn
      · obtain ⟨o', e5, h5⟩ := hposted h3.symm u hu
        rw [e4] at e5
        have := List.append_cancel_left e5
        subst this
        rw [postsOf_append, e2]; exact h5
  cases hres with
  | skip => exact .refl h
  | low hd hb hl => exact fin _ [] hap (by simp) rfl (fun _ => rfl)
  | panic hd hb hl hgen =>
    refine ⟨hap, [], by simp, by simp [postsOf], ?_⟩
    intro k f hf hfp hn u hu
    rcases mem_appendFrag ht hf with h' | ⟨rfl, h3, h4⟩
    · exact absurd h' hn
    · exfalso
      have hall : ∀ f' ∈ s.storage.fragList f.type f.getID ++ [f], GenuineFrag cf.crypto pub R.pay f' := by
        intro f' hf'
        rcases List.mem_append.1 hf' with hf' | hf'
        · have e : f'.payload.p0 = R.pay.p0 := (key_of_frag hI hf' rfl).trans hfp
          rw [← h3] at hf'
          exact (h.frags _ f' hf' e).2
        · simp at hf'; subst hf'; exact (hg.frag h3.symm hfp).2
      obtain ⟨o, ho, _⟩ := generateFULL_genuine J B hS.bls clk R.pay hp _ (by simp) (by simp; omega) hall
        f.getTargetType (getTargetType_isFull ht)
      rw [hgen] at ho; cases ho
  | gen o s2 b hd hb hl hgen hh =>
    have hot : o.type.isFull = true := by rw [generateFULL_type hgen]; exact getTargetType_isFull ht
    have hoty : o.type = fragTarget g.type := by rw [generateFULL_type hgen]; exact getTargetType_frag ht
    have hopay : ∃ f' ∈ s.storage.fragList g.type g.getID ++ [g], o.payload = f'.payload := by
      exact generateFULL_payload hgen
    have hentity : ∀ f' ∈ s.storage.fragList g.type g.getID ++ [g], f'.payload.p0 = g.payload.p0 := by
      intro f' hf'
      rcases List.mem_append.1 hf' with hf' | hf'
      · exact key_of_frag hI hf' rfl
      · simp at hf'; rw [hf']
    have hgenuine : g.type = R.kind.frag → g.payload.p0 = R.pay.p0 → ∀ f' ∈ s.storage.fragList g.type g.getID ++ [g],
        GenuineFrag cf.crypto pub R.pay f' := by
      intro e1 e2 f' hf'
      have e3 := (hentity f' hf').trans e2
      rcases List.mem_append.1 hf' with hf' | hf'
      · rw [e1] at hf'; exact (h.frags _ f' hf' e3).2
      · simp at hf'; subst hf'; exact (hg.frag e1 e2).2
    have hmo : MsgOK cf.crypto pub R o := by
      refine ⟨?_, ?_, ?_⟩
      · intro e; rw [e] at hot; cases hk : R.kind <;> rw [hk] at hot <;> cases hot
      · intro e; rw [e] at hot; cases hk : R.kind <;> rw [hk] at hot <;> cases hot
      · intro e _ hx
        obtain ⟨f', hf', e'⟩ := hopay
        have e1 : g.type = R.kind.frag := by
          rw [hoty] at e
          cases hk : R.kind <;> rw [hk] at e <;> cases hgt : g.type <;> rw [hgt] at e ht <;>
            simp_all [fragTarget, Kind.full, Kind.frag, GType.isFrag]
        have e2 : g.payload.p0 = R.pay.p0 := by rw [← hentity f' hf', ← e']; exact hx
        rw [e']
        exact (hgenuine e1 e2 f' hf').1
    have hem : NodeOK cf pub R (({ s with storage := s.storage.appendFrag g.type g.getID g } : GState).emit [.generatedFull g.getID o]) :=
      ⟨hap.init, hap.timers, hap.frags, hap.fulls, hap.payload⟩
    have hF := Fwd.full (opt := opt) hem clk o hot hmo
    have hlist : ∀ k, s2.storage.fragList R.kind.frag k = (s.storage.appendFrag g.type g.getID g).fragList R.kind.frag k := by
      intro k
      have e2 : s2 = (handle cf clk (({ s with storage := s.storage.appendFrag g.type g.getID g } : GState).emit
        [.generatedFull g.getID o]) o).1 := by rw [hh]
      rcases handle_full_cases cf clk (({ s with storage := s.storage.appendFrag g.type g.getID g } : GState).emit
        [.generatedFull g.getID o]) o hot with e | e | ⟨_, e⟩ | ⟨_, _, _, e⟩ <;> rw [e2, e] <;> simp
    rw [hh] at hF
    obtain ⟨o1, e1, hm1, _⟩ := hF.out
    have hnp : postsOf o1 = [] := by
      have e2 : s2 = (handle cf clk (({ s with storage := s.storage.appendFrag g.type g.getID g } : GState).emit
        [.generatedFull g.getID o]) o).1 := by rw [hh]
      have : o1 = [] ∨ o1 = [.owner o] := by
        rcases handle_full_cases cf clk (({ s with storage := s.storage.appendFrag g.type g.getID g } : GState).emit
          [.generatedFull g.getID o]) o hot with e | e | ⟨_, e⟩ | ⟨_, _, _, e⟩ <;>
          (simp only [e2, e] at e1; simp [sendToMonitor, GState.emit] at e1; simp [e1])
      rcases this with rfl | rfl <;> rfl
    cases b with
    | true =>
      refine ⟨hF.ok, [.generatedFull g.getID o] ++ o1, by rw [if_pos rfl, e1]; simp [GState.emit], ?_, ?_⟩
      · rw [postsOf_append, hnp]; simp [postsOf]
      · rw [if_pos rfl]
        intro k f hf hfp hn u hu
        rw [hlist] at hf
        rcases mem_appendFrag ht hf with h' | ⟨rfl, h3, h4⟩
        · exact absurd h' hn
        · exfalso
          have hv : o.verify cf.crypto = .ok := by
            obtain ⟨o', ho', hv, _⟩ := generateFULL_genuine J B hS.bls clk R.pay hp _ (by simp) (by simp; omega)
              (hgenuine h3.symm hfp) f.getTargetType (getTargetType_isFull ht)
            rw [hgen] at ho'; cases ho'; exact hv
          have := handle_full_nopanic cf clk (({ s with storage := s.storage.appendFrag f.type f.getID f } : GState).emit
            [.generatedFull f.getID o]) o hot hv
          rw [hh] at this; cases this
    | false =>
      refine fin s2 ([.generatedFull g.getID o] ++ o1) hF.ok (by rw [e1]; simp [GState.emit]) ?_ hlist
      rw [postsOf_append, hnp]; rfl

theorem Kind.ne_con (k : Kind) : GType.CON_INIT ≠ k.init ∧ GType.CON_INIT ≠ k.frag ∧ GType.CON_INIT ≠ k.full := by
  cases k <;> simp [Kind.init, Kind.frag, Kind.full]

/-- Handling a conflict proof. -/
theorem Fwd.con {s : GState} (h : NodeOK cf pub R s) (hMo : Mode cf R opt) (clk : Clock) (g : GossipObj)
    (ht : g.type = .CON_INIT) : Fwd opt cf pub R s (handle cf clk s g).1 := by
  have hg : MsgOK cf.crypto pub R g := by
    obtain ⟨a, b, c⟩ := R.kind.ne_con
    exact .other (by rw [ht]; exact a) (by rw [ht]; exact b) (by rw [ht]; exact c)
  rw [handle_con cf clk ht]
  split
  · exact .refl h
  · rename_i hd
    split
    · exact .refl h
    · unfold handleCon
      split
      · rcases storeGossipObject_cases cf clk s g (by rw [ht]; rfl) (by simpa using hd) with ⟨_, e⟩ | ⟨_, e⟩ | ⟨hv, e⟩ <;> simp only [e]
        · exact .refl h
        · exact .refl h
        · have h1 := Fwd.stored (opt := opt) h clk g (by rw [ht]; rfl) hg hv
          have h2 := (Fwd.peers h1.ok hMo g hg).1
          exact (h1.trans h2).trans (.owner h2.ok g)
      · exact .refl h

/-- A fragment the gossiper signs is a fragment of the round. -/
theorem signed_ok (hS : Keyed cf pub) {g f : GossipObj} (hi : g.type.isInit = true) (hg : g.type = R.kind.init → InitOK R g)
    (hf : generateFRAG cf g = some f) : MsgOK cf.crypto pub R f := by
  have hty := generateFRAG_type hf
  unfold generateFRAG at hf
  split at hf
  · cases hf
  · rename_i str hstr
    cases hf
    refine ⟨?_, ?_, ?_⟩
    · intro e; cases hk : R.kind <;> rw [hk] at e <;> cases hgt : g.type <;> simp_all [Kind.init, GType.isInit]
    · intro e hx
      have e1 : g.type = R.kind.init := by
        cases hk : R.kind <;> rw [hk] at e <;> cases hgt : g.type <;> simp_all [Kind.init, Kind.frag, GType.isInit]
      obtain ⟨h1, h2⟩ := hg e1 hx
      refine ⟨h2, h1, cf.crypto, ⟨hS.bls, hS.registered⟩, hS.safe, ?_⟩
      rw [← h1]; exact hstr
    · intro e; cases hk : R.kind <;> rw [hk] at e <;> cases hgt : g.type <;> simp_all [Kind.full, GType.isInit]

theorem Fwd.signed {s : GState} (h : NodeOK cf pub R s) (f : GossipObj) : Fwd opt cf pub R s (s.emit [.signed f]) :=
  .same h rfl (fun _ => rfl) rfl rfl (fun _ hg => hg) [.signed f] rfl (by simp [postsOf])

/-- Handling any object. -/
theorem Fwd.handle {s : GState} (h : NodeOK cf pub R s) (hI : StorageInv cf s.storage) (J : L.JsonLaws) (B : L.BlsLaws pub)
    (hS : Keyed cf pub) (hMo : Mode cf R opt) (hp : R.pay.p0 ≠ []) (clk : Clock) (g : GossipObj) (hg : MsgOK cf.crypto pub R g) :
    Fwd opt cf pub R s (CTng.handle cf clk s g).1 := by
  have sthrev : g.type = .STH_INIT ∨ g.type = .REV_INIT → Fwd opt cf pub R s (CTng.handle cf clk s g).1 := by
    intro ht
    have hobj : g.type.isObj = true := by rcases ht with e | e <;> rw [e] <;> rfl
    rw [handle_sthrev cf clk ht]
    split
    · exact .refl h
    · rename_i hd
      split
      · exact .refl h
      · unfold handleInit
        split
        · exact .refl h
        · split
          · exact .refl h
          · split
            · exact .con h hMo clk _ rfl
            · rcases storeGossipObject_cases cf clk s g hobj (by simpa using hd) with ⟨_, e⟩ | ⟨_, e⟩ | ⟨hv, e⟩ <;> simp only [e]
              · exact .refl h
              · exact .refl h
              · have h1 := Fwd.stored (opt := opt) h clk g hobj hg hv
                have h2 := (Fwd.peers h1.ok hMo g hg).1
                have h3 := Fwd.owner (opt := opt) h2.ok g
                exact ((h1.trans h2).trans h3).trans (.arm h3.ok g (fun e => hg.init e hv))
  cases hty : g.type with
  | STH_INIT => exact sthrev (.inl hty)
  | REV_INIT => exact sthrev (.inr hty)
  | ACC_INIT =>
    rw [handle_acc cf clk hty]
    split
    · exact .refl h
    · rename_i hd
      split
      · exact .refl h
      · unfold handleAcc
        split
        · exact .refl h
        · split
          · exact .refl h
          · rcases storeGossipObject_cases cf clk s g (by rw [hty]; rfl) (by simpa using hd) with ⟨_, e⟩ | ⟨_, e⟩ | ⟨hv, e⟩ <;> simp only [e]
            · exact .refl h
            · exact .refl h
            · have h1 := Fwd.stored (opt := opt) h clk g (by rw [hty]; rfl) hg hv
              split
              · exact h1
              · unfold signStatement
                cases hf : generateFRAG cf g with
                | none => exact h1
                | some f =>
                  have h2 := Fwd.signed (opt := opt) h1.ok f
                  have hft : f.type.isFrag = true := by
                    have := generateFRAG_type hf
                    cases hgt : g.type <;> simp_all [GType.isFrag]
                  refine (h1.trans h2).trans (.frag h2.ok ?_ J B hS hMo hp clk f hft (signed_ok hS (by rw [hty]; rfl) (fun e => hg.init e hv) hf))
                  show StorageInv cf (storedState cf clk s g).storage
                  rw [storage_storedState]
                  exact hI.step cf (.put g hv (by rw [hty]; rfl) (fun _ => by simpa using hd))
  | CON_INIT => exact .con h hMo clk g hty
  | STH_FRAG => exact .frag h hI J B hS hMo hp clk g (by rw [hty]; rfl) hg
  | REV_FRAG => exact .frag h hI J B hS hMo hp clk g (by rw [hty]; rfl) hg
  | ACC_FRAG => exact .frag h hI J B hS hMo hp clk g (by rw [hty]; rfl) hg
  | STH_FULL => exact .full h clk g (by rw [hty]; rfl) hg
  | REV_FULL => exact .full h clk g (by rw [hty]; rfl) hg
  | ACC_FULL => exact .full h clk g (by rw [hty]; rfl) hg
  | other t => rw [handle_other cf clk (by rw [hty]; rfl)]; exact .refl h

/-- An object whose payload the gossiper does not replace. -/
theorem ArrOK.plain {d : GossipObj} (hd : ArrOK opt cf.crypto pub R d) (hMo : Mode cf R opt)
    (hn : ¬ (cf.optMode = true ∧ d.type = .REV_FRAG)) : MsgOK cf.crypto pub R d := by
  unfold ArrOK at hd
  rwa [if_neg] at hd
  rintro ⟨rfl, hk, ht, _⟩
  exact hn ⟨(hMo hk).1, ht⟩

/-- A fragment with the payload the gossiper has saved. -/
theorem recon_ok {s : GState} (h : NodeOK cf pub R s) (hI : StorageInv cf s.storage) (hMo : Mode cf R opt) (hp : R.pay.p0 ≠ [])
    {d : GossipObj} (ho : cf.optMode = true) (ht : d.type = .REV_FRAG) (hd : ArrOK opt cf.crypto pub R d) :
    MsgOK cf.crypto pub R (reconstructPayload s d) := by
  by_cases hk : R.kind = .rev
  · have hopt : opt = true := by rw [← (hMo hk).1]; exact ho
    refine ⟨?_, ?_, ?_⟩
    · intro e; simp only [reconstructPayload, ht, hk] at e; cases e
    · intro e hx
      revert hx
      unfold reconstructPayload GossipObj.getID
      cases hg : s.storage.revPayload.get ⟨d.period, .REV_INIT, d.payload.p0⟩ with
      | none => intro hx; exact absurd hx.symm hp
      | some o =>
        simp only [Option.getD_some]
        intro hx
        have h1 := congrArg GossipID.entity (hI.payload _ _ hg).1
        have h2 : d.payload.p0 = R.pay.p0 := h1.symm.trans hx
        have h3 := (h.payload hk _ o hg hx).1
        unfold ArrOK at hd
        rw [if_pos ⟨hopt, hk, ht, h2⟩] at hd
        rw [h3]
        exact hd.frag (by rw [hk]; exact ht) rfl
    · intro e; simp only [reconstructPayload, ht, hk] at e; cases e
  · refine .other ?_ ?_ ?_ <;> simp only [reconstructPayload, ht] <;>
      (cases hk' : R.kind <;> simp_all [Kind.init, Kind.frag, Kind.full])

/-- One event at a gossiper other than the wipe. -/
theorem Fwd.step {s : GState} (h : NodeOK cf pub R s) (hr : GReach cf s) (J : L.JsonLaws) (B : L.BlsLaws pub)
    (hS : Keyed cf pub) (hMo : Mode cf R opt) (hp : R.pay.p0 ≠ []) (e : Clock × GOp) (he : e.2 ≠ .periodic)
    (hm : ∀ n d, e.2 = .recv n d → ArrOK opt cf.crypto pub R d) : Fwd opt cf pub R s (gstep cf s e) := by
  obtain ⟨clk, op⟩ := e
  have hI := hr.storageInv
  unfold gstep
  split
  · exact .refl h
  cases op with
  | recv n d =>
    have hd := hm n d rfl
    simp only
    unfold gossipObjectHandler
    simp only
    have h0 : Fwd opt cf pub R s { s with trafficReceived := s.trafficReceived + n } :=
      .same h rfl (fun _ => rfl) rfl rfl (fun _ hg => hg) [] (by simp) (by simp [postsOf])
    by_cases hc : n > cf.optThreshold ∧ d.type = .REV_INIT
    · rw [if_pos hc]
      have hnf : ¬ (cf.optMode = true ∧ d.type = .REV_FRAG) := by rw [hc.2]; simp
      rcases hs : savePayload cf { s with trafficReceived := s.trafficReceived + n } d with ⟨s1, b⟩
      rcases savePayload_eq cf { s with trafficReceived := s.trafficReceived + n } d with e | ⟨hv, e⟩
      · rw [hs] at e
        simp only at e
        subst e
        cases b
        · exact h0
        · simp only [hnf, if_false]
          exact h0.trans (.handle h0.ok hI J B hS hMo hp clk d (hd.plain hMo hnf))
      · rw [hs] at e
        simp only at e
        have h1 : Fwd opt cf pub R s s1 := by
          rw [e]
          refine ⟨⟨?_, h.timers, ?_, ?_, ?_⟩, [], by simp, by simp [postsOf], ?_⟩
          · intro k o ho; refine h.init k o ?_; revert ho; cases R.kind <;> exact id
          · intro k f hf; refine h.frags k f ?_; revert hf; cases R.kind <;> exact id
          · intro k o ho; refine h.fulls k o ?_; revert ho; cases R.kind <;> exact id
          · intro hk k o ho
            simp only [GoMap.get_set] at ho
            split at ho
            · cases ho; exact (hd.plain hMo hnf).init (by rw [hc.2, hk]; rfl) hv
            · exact h.payload hk k o ho
          · intro k f hf _ hn; exact absurd (by revert hf; cases R.kind <;> exact id) hn
        have hI1 : StorageInv cf s1.storage := by
          rw [e]
          exact hI.step cf (.payload n d hv hc.2 hc.1)
        cases b
        · exact h1
        · simp only [hnf, if_false]
          exact h1.trans (.handle h1.ok hI1 J B hS hMo hp clk d (hd.plain hMo hnf))
    · rw [if_neg hc]
      simp only
      by_cases hrf : cf.optMode = true ∧ d.type = .REV_FRAG
      · rw [if_pos hrf]
        refine h0.trans (.handle h0.ok hI J B hS hMo hp clk _ ?_)
        exact recon_ok h0.ok hI hMo hp hrf.1 hrf.2 hd
      · rw [if_neg hrf]
        exact h0.trans (.handle h0.ok hI J B hS hMo hp clk d (hd.plain hMo hrf))
  | notify n x =>
    simp only
    unfold notificationHandler
    simp only
    split
    · refine .same h rfl (fun _ => rfl) rfl rfl (fun _ hg => hg) _ rfl ?_
      intro m hm q hq; simp [postsOf] at hm; subst hm; cases hq
    · exact .same h rfl (fun _ => rfl) rfl rfl (fun _ hg => hg) [] (by simp) (by simp [postsOf])
  | request n x =>
    simp only
    unfold requestHandler
    simp only
    split
    · rename_i hne
      refine .same h rfl (fun _ => rfl) rfl rfl (fun _ hg => hg) _ rfl ?_
      intro m hm q hq
      simp [postsOf] at hm
      subst hm
      simp only [Body.obj.injEq] at hq
      subst hq
      unfold getREVrequested at hne ⊢
      simp only at hne ⊢
      cases hg : s.storage.revPayload.get ⟨x.period, .REV_INIT, x.entity⟩ with
      | none => rw [hg] at hne; exact absurd rfl hne
      | some o =>
        simp only [Option.getD_some]
        refine .of ?_
        obtain ⟨_, h2, _⟩ := hI.payload _ _ hg
        by_cases hk : R.kind = .rev
        · refine ⟨fun _ _ => h.payload hk _ o hg, ?_, ?_⟩
          · intro e; rw [h2, hk] at e; cases e
          · intro e; rw [h2, hk] at e; cases e
        · refine .other ?_ ?_ ?_ <;> rw [h2] <;> (cases hk' : R.kind <;> simp_all [Kind.init, Kind.frag, Kind.full])
    · exact .same h rfl (fun _ => rfl) rfl rfl (fun _ hg => hg) [] (by simp) (by simp [postsOf])
  | periodic => exact absurd rfl he
  | fire i =>
    simp only
    cases ht : s.timers[i]? with
    | none => exact .refl h
    | some g =>
      simp only
      have hgm := List.mem_of_getElem? ht
      have h0 : Fwd opt cf pub R s { s with timers := s.timers.eraseIdx i } :=
        .same h rfl (fun _ => rfl) rfl rfl (fun _ hg => List.mem_of_mem_eraseIdx hg) [] (by simp) (by simp [postsOf])
      have h1 : Fwd opt cf pub R s (timerFire cf clk { s with timers := s.timers.eraseIdx i } g).1 := by
        unfold timerFire
        split
        · exact h0
        · unfold signStatement
          cases hf : generateFRAG cf g with
          | none => exact h0
          | some f =>
            simp only [Option.map_some]
            have h2 := Fwd.signed (opt := opt) h0.ok f
            exact (h0.trans h2).trans (.handle h2.ok hI J B hS hMo hp clk f (signed_ok hS (hr.timersInit cf g hgm) (h.timers g hgm) hf))
      rcases htf : timerFire cf clk { s with timers := s.timers.eraseIdx i } g with ⟨s', b⟩
      rw [htf] at h1
      cases b
      · exact h1
      · exact h1.trans (.same h1.ok rfl (fun _ => rfl) rfl rfl (fun _ hg => hg) [] (by simp) (by simp [postsOf]))

end
end CTng
