import Verif.Props.NetworkThreshold
import Verif.Props.GossiperMisc
import Verif.Props.GossiperSurvives
/- C154: what a gossiper logs about a period without faults. -/
set_option autoImplicit false

namespace CTng
variable {L : Lib}

/-! ### C154 -/

/-- The statements of a period without faults: STHs and revocation updates that verify, at most one of a kind per entity. -/
structure Faultless (cf : GConf L) (S : List GossipObj) : Prop where
  type : ∀ o ∈ S, o.type = .STH_INIT ∨ o.type = .REV_INIT
  valid : ∀ o ∈ S, o.verify cf.crypto = .ok
  signer : ∀ o ∈ S, o.signer ≠ []
  entity : ∀ o ∈ S, o.payload.p0 ≠ []
  one : ∀ o ∈ S, ∀ o' ∈ S, o.type = o'.type → o.payload.p0 = o'.payload.p0 → o = o'
  nodup : S.Nodup

/-- Where the fragments of a statement are filed. -/
def partID (o : GossipObj) : GossipID := ⟨o.period, fragOfInit o.type, o.payload.p0⟩

/-- `d` is a fragment of a registered gossiper on the statement `o`. -/
def PartOf (cf : GConf L) (pub : L.BlsSec → L.BlsPub) (o d : GossipObj) : Prop :=
  d.type = fragOfInit o.type ∧ d.period = o.period ∧ GenuineFrag cf.crypto pub o.payload d

/-- `d` is such a fragment as it is received: a gossiper in optimisation mode does not look at the payload of a REV_FRAG, which may
be stripped, but for the name of the entity. -/
def CarriesPart (cf : GConf L) (pub : L.BlsSec → L.BlsPub) (o d : GossipObj) : Prop :=
  PartOf cf pub o { d with payload := o.payload } ∧ d.payload.p0 = o.payload.p0 ∧
    (d.payload = o.payload ∨ cf.optMode = true ∧ d.type = .REV_FRAG)

/-- What happens in a period without faults: statements in `S` and fragments on them are received; timers run; notifications
and requests come. -/
def FaultlessOp (cf : GConf L) (pub : L.BlsSec → L.BlsPub) (S : List GossipObj) : GOp → Prop
  | .recv _ d => d ∈ S ∨ ∃ o ∈ S, CarriesPart cf pub o d
  | .periodic => False
  | _ => True

/-- In optimisation mode, no REV_FRAG arrives before its revocation update, and these are long enough to be saved. -/
def InOrder (cf : GConf L) (S : List GossipObj) (h : List (Clock × GOp)) : Prop :=
  cf.optMode = true → ∀ a b clk n d, h = a ++ (clk, .recv n d) :: b → d.type = .REV_FRAG →
    ∃ clk' n' o, (clk', .recv n' o) ∈ a ∧ o ∈ S ∧ o.type = .REV_INIT ∧ o.payload.p0 = d.payload.p0 ∧ n' > cf.optThreshold

/-- The state in which a period starts: nothing is held but conflict proofs, no timer is left, and no entity of a statement is
blacklisted. -/
structure PeriodStart (S : List GossipObj) (s : GState) : Prop where
  held : ∀ t k o, HeldAs s.storage k o t → t = .CON_INIT
  frags : ∀ t k l, ¬ FragsAt s.storage k l t
  saved : ∀ k, s.storage.revPayload.get k = none
  timers : s.timers = []
  allowed : ∀ o ∈ S, s.blacklist.has o.payload.p0 = false

/-- Invariant of a period without faults that began in `s0`; the statements in `X` are about to be signed. -/
structure RInv (cf : GConf L) (pub : L.BlsSec → L.BlsPub) (S : List GossipObj) (s0 : GState) (X : GossipObj → Prop) (s : GState) :
    Prop where
  con : s.storage.objs .CON_INIT = s0.storage.objs .CON_INIT
  bl : s.blacklist = s0.blacklist
  timers : ∀ g ∈ s.timers, g ∈ S
  inits : ∀ t k o, t.isInit = true → (s.storage.objs t).get k = some o → o ∈ S ∧ o.type = t ∧ o.getID = k
  frags : ∀ t k l, (s.storage.frags t).get k = some l → l ≠ [] ∧ ∃ o ∈ S, t = fragOfInit o.type ∧ k = partID o ∧
    ∀ f ∈ l, GenuineFrag cf.crypto pub o.payload f
  fulls : ∀ t k v, t.isFull = true → (s.storage.objs t).get k = some v → ∃ o ∈ S, t = fullOfInit o.type ∧
    k.entity = o.payload.p0 ∧ cf.crypto.threshold ≤ ((s.storage.fragList (fragOfInit o.type) (partID o)).length : Int)
  uniq : ∀ t k k' v v', t.isFull = true → (s.storage.objs t).get k = some v → (s.storage.objs t).get k' = some v' →
    k.entity = k'.entity → k = k'
  own : ∀ o ∈ S, (s.storage.objs o.type).get o.getID = some o → X o ∨ o ∈ s.timers ∨
    ∃ f, generateFRAG cf o = some f ∧ Kept cf f.type f.getID f.sig s

theorem Storage.frags_appendFrag_same (s : Storage) (t : GType) (k : GossipID) (o : GossipObj) (h : t.isFrag = true) :
    (s.appendFrag t k o).frags t = (s.frags t).set k (s.fragList t k ++ [o]) := by
  cases t <;> simp_all [GType.isFrag, appendFrag, frags]

theorem Storage.frags_appendFrag_ne (s : Storage) {t t' : GType} (k : GossipID) (o : GossipObj) (h : t' ≠ t) :
    (s.appendFrag t k o).frags t' = s.frags t' := by
  cases t <;> cases t' <;> simp_all [appendFrag, frags]

section
variable {cf : GConf L} {pub : L.BlsSec → L.BlsPub} {S : List GossipObj} {s0 s s' : GState}
  {X : GossipObj → Prop}

theorem Kept.congr {t : GType} {k : GossipID} {σ : Sig2} (h : s'.storage.fragList t k = s.storage.fragList t k)
    (hk : Kept cf t k σ s) : Kept cf t k σ s' := by
  unfold Kept at hk ⊢; rw [h]; exact hk

theorem Kept.extend {t : GType} {k : GossipID} {σ : Sig2} {r : List GossipObj}
    (h : s'.storage.fragList t k = s.storage.fragList t k ++ r) (hk : Kept cf t k σ s) : Kept cf t k σ s' := by
  unfold Kept at hk ⊢
  rw [h]
  rcases hk with hk | ⟨f, hf, e⟩
  · left; rw [List.length_append]; push_cast; omega
  · exact .inr ⟨f, List.mem_append_left _ hf, e⟩

theorem RInv.congr (h : RInv cf pub S s0 X s) (ho : ∀ t, s'.storage.objs t = s.storage.objs t)
    (hf : ∀ t, s'.storage.frags t = s.storage.frags t) (hb : s'.blacklist = s.blacklist) (ht : s'.timers = s.timers) :
    RInv cf pub S s0 X s' where
  con := by rw [ho]; exact h.con
  bl := hb.trans h.bl
  timers := by rw [ht]; exact h.timers
  inits := by intro t k o hi; rw [ho]; exact h.inits t k o hi
  frags := by intro t k l; rw [hf]; exact h.frags t k l
  fulls := by
    intro t k v hi
    rw [ho]
    intro hk
    obtain ⟨o, h1, h2, h3, h4⟩ := h.fulls t k v hi hk
    exact ⟨o, h1, h2, h3, by unfold Storage.fragList at h4 ⊢; rw [hf]; exact h4⟩
  uniq := by intro t k k' v v' hi; rw [ho]; exact h.uniq t k k' v v' hi
  own := by
    intro o hoS
    rw [ho, ht]
    intro hk
    rcases h.own o hoS hk with h1 | h1 | ⟨f, h1, h2⟩
    · exact .inl h1
    · exact .inr (.inl h1)
    · exact .inr (.inr ⟨f, h1, h2.congr (by unfold Storage.fragList; rw [hf])⟩)

theorem fragOfInit_isFrag {t : GType} (h : t = .STH_INIT ∨ t = .REV_INIT) : (fragOfInit t).isFrag = true := by
  rcases h with rfl | rfl <;> rfl

theorem fragOfInit_inj {t t' : GType} (h : t = .STH_INIT ∨ t = .REV_INIT) (h' : t' = .STH_INIT ∨ t' = .REV_INIT)
    (e : fragOfInit t = fragOfInit t') : t = t' := by
  rcases h with rfl | rfl <;> rcases h' with rfl | rfl <;> first | rfl | (simp [fragOfInit] at e)

theorem fullOfInit_inj {t t' : GType} (h : t = .STH_INIT ∨ t = .REV_INIT) (h' : t' = .STH_INIT ∨ t' = .REV_INIT)
    (e : fullOfInit t = fullOfInit t') : t = t' := by
  rcases h with rfl | rfl <;> rcases h' with rfl | rfl <;> first | rfl | (simp [fullOfInit] at e)

theorem fragTarget_fragOfInit {t : GType} (h : t = .STH_INIT ∨ t = .REV_INIT) : fragTarget (fragOfInit t) = fullOfInit t := by
  rcases h with rfl | rfl <;> rfl

theorem partID_inj (hS : Faultless cf S) {o o' : GossipObj} (h : o ∈ S) (h' : o' ∈ S) (e : partID o = partID o') : o = o' := by
  have e1 : fragOfInit o.type = fragOfInit o'.type := congrArg GossipID.type e
  have e2 : o.payload.p0 = o'.payload.p0 := congrArg GossipID.entity e
  exact hS.one o h o' h' (fragOfInit_inj (hS.type o h) (hS.type o' h') e1) e2

theorem PartOf.getID {o d : GossipObj} (h : PartOf cf pub o d) : d.getID = partID o := by
  obtain ⟨h1, h2, h3, _⟩ := h
  simp [GossipObj.getID, partID, h1, h2, h3]

/-- A kept fragment. -/
theorem RInv.append (hS : Faultless cf S) (h : RInv cf pub S s0 X s) {o g : GossipObj} (ho : o ∈ S) (hg : PartOf cf pub o g)
    (hs' : s'.storage = s.storage.appendFrag g.type g.getID g) (hb : s'.blacklist = s.blacklist) (ht : s'.timers = s.timers) :
    RInv cf pub S s0 X s' := by
  have hfrag : g.type.isFrag = true := by rw [hg.1]; exact fragOfInit_isFrag (hS.type o ho)
  have hobjs : ∀ t, s'.storage.objs t = s.storage.objs t := by intro t; rw [hs']; simp
  have hext : ∀ t k, ∃ r, s'.storage.fragList t k = s.storage.fragList t k ++ r := by
    intro t k
    rw [hs']
    by_cases e : t = g.type ∧ k = g.getID
    · obtain ⟨rfl, rfl⟩ := e
      exact ⟨[g], Storage.fragList_appendFrag_same _ _ _ _ hfrag⟩
    · have e' : t ≠ g.type ∨ k ≠ g.getID := by by_cases h1 : t = g.type <;> simp_all
      exact ⟨[], by rw [Storage.fragList_appendFrag_ne _ _ e']; simp⟩
  refine ⟨by rw [hobjs]; exact h.con, hb.trans h.bl, by rw [ht]; exact h.timers,
    by intro t k v hi; rw [hobjs]; exact h.inits t k v hi, ?_, ?_, by intro t k k' v v' hi; rw [hobjs]; exact h.uniq t k k' v v' hi, ?_⟩
  · intro t k l hl
    rw [hs'] at hl
    by_cases e : t = g.type
    · subst e
      rw [Storage.frags_appendFrag_same _ _ _ _ hfrag, GoMap.get_set] at hl
      split at hl
      · rename_i e
        cases hl
        refine ⟨by simp, o, ho, hg.1, by rw [e, hg.getID], ?_⟩
        intro f hf
        rcases List.mem_append.1 hf with hf | hf
        · cases hget : (s.storage.frags g.type).get g.getID with
          | none => unfold Storage.fragList at hf; rw [hget] at hf; simp at hf
          | some l =>
            obtain ⟨_, o', h1, h2, h3, h4⟩ := h.frags _ _ _ hget
            rw [hg.getID] at h3
            cases partID_inj hS ho h1 h3
            exact h4 f (by unfold Storage.fragList at hf; rw [hget] at hf; exact hf)
        · simp only [List.mem_singleton] at hf
          subst hf
          exact hg.2.2
      · exact h.frags _ _ _ hl
    · rw [Storage.frags_appendFrag_ne _ _ _ e] at hl
      exact h.frags _ _ _ hl
  · intro t k v hi
    rw [hobjs]
    intro hk
    obtain ⟨o', h1, h2, h3, h4⟩ := h.fulls t k v hi hk
    obtain ⟨r, hr⟩ := hext (fragOfInit o'.type) (partID o')
    exact ⟨o', h1, h2, h3, by rw [hr, List.length_append]; push_cast; omega⟩
  · intro o' ho'
    rw [hobjs, ht]
    intro hk
    rcases h.own o' ho' hk with h1 | h1 | ⟨f, h1, h2⟩
    · exact .inl h1
    · exact .inr (.inl h1)
    · obtain ⟨r, hr⟩ := hext f.type f.getID
      exact .inr (.inr ⟨f, h1, h2.extend hr⟩)

/-- A FULL object for a statement of which Threshold fragments are held and no FULL object. -/
theorem RInv.putFull (hS : Faultless cf S) (h : RInv cf pub S s0 X s) {o v : GossipObj} (ho : o ∈ S) (hv : v.type = fullOfInit o.type)
    (hp : v.payload = o.payload) (hl : cf.crypto.threshold ≤ ((s.storage.fragList (fragOfInit o.type) (partID o)).length : Int))
    (hno : ∀ k v', (s.storage.objs v.type).get k = some v' → k.entity ≠ o.payload.p0)
    (hs' : s'.storage = s.storage.putObj v.type v.getID v) (hb : s'.blacklist = s.blacklist) (ht : s'.timers = s.timers) :
    RInv cf pub S s0 X s' := by
  have hfull : v.type.isFull = true := by rw [hv]; rcases hS.type o ho with h | h <;> rw [h] <;> rfl
  have hobj : v.type.isObj = true := by rw [hv]; rcases hS.type o ho with h | h <;> rw [h] <;> rfl
  have hne : ∀ t, t.isFull = false → s'.storage.objs t = s.storage.objs t := by
    intro t h'
    rw [hs']
    exact Storage.objs_putObj_ne _ _ _ (by rintro rfl; rw [hfull] at h'; cases h')
  have hfr : ∀ t, s'.storage.frags t = s.storage.frags t := by intro t; rw [hs']; simp
  have hfl : ∀ t k, s'.storage.fragList t k = s.storage.fragList t k := by intro t k; unfold Storage.fragList; rw [hfr]
  have hent : v.getID.entity = o.payload.p0 := by simp [GossipObj.getID, hp]
  refine ⟨by rw [hne _ rfl]; exact h.con, hb.trans h.bl, by rw [ht]; exact h.timers, ?_, by intro t k l; rw [hfr]; exact h.frags t k l,
    ?_, ?_, ?_⟩
  · intro t k x hi
    rw [hne t (by cases t <;> simp_all [GType.isInit, GType.isFull])]
    exact h.inits t k x hi
  · intro t k x hi hk
    simp only [hfl]
    rw [hs'] at hk
    by_cases e : t = v.type
    · subst e
      rw [Storage.objs_putObj_same _ _ _ _ hobj, GoMap.get_set] at hk
      split at hk
      · rename_i e
        exact ⟨o, ho, hv, by rw [e]; exact hent, hl⟩
      · exact h.fulls _ _ _ hi hk
    · rw [Storage.objs_putObj_ne _ _ _ e] at hk
      exact h.fulls _ _ _ hi hk
  · intro t k k' x x' hi hk hk' e
    rw [hs'] at hk hk'
    by_cases et : t = v.type
    · subst et
      rw [Storage.objs_putObj_same _ _ _ _ hobj, GoMap.get_set] at hk hk'
      split at hk <;> split at hk'
      · simp_all
      · rename_i e1 _
        subst e1
        exact absurd (e.symm.trans hent) (hno k' x' hk')
      · rename_i _ e1
        subst e1
        exact absurd (e.trans hent) (hno k x hk)
      · exact h.uniq _ k k' x x' hi hk hk' e
    · rw [Storage.objs_putObj_ne _ _ _ et] at hk hk'
      exact h.uniq _ k k' x x' hi hk hk' e
  · intro o' ho'
    rw [hne _ (by rcases hS.type o' ho' with h | h <;> rw [h] <;> rfl), ht]
    intro hk
    rcases h.own o' ho' hk with h1 | h1 | ⟨f, h1, h2⟩
    · exact .inl h1
    · exact .inr (.inl h1)
    · exact .inr (.inr ⟨f, h1, h2.congr (hfl _ _)⟩)

/-- Handling a fragment on a statement. -/
theorem RInv.handleFrag (hS : Faultless cf S) (h : RInv cf pub S s0 X s) (clk : Clock) {o g : GossipObj} (ho : o ∈ S)
    (hg : PartOf cf pub o g) : RInv cf pub S s0 X (handle cf clk s g).1 ∧ (handle cf clk s g).1.timers = s.timers := by
  have hfrag : g.type.isFrag = true := by rw [hg.1]; exact fragOfInit_isFrag (hS.type o ho)
  have hres := handle_frag_res cf clk s g hfrag
  generalize (handle cf clk s g).1 = s' at hres ⊢
  cases hres with
  | skip => exact ⟨h, rfl⟩
  | low => exact ⟨h.append hS ho hg (by simp) (by simp) (by simp), by simp⟩
  | panic => exact ⟨h.append hS ho hg rfl rfl rfl, rfl⟩
  | gen v s2 b hd hb hl hgen hr =>
    generalize hs1 : ({ s with storage := s.storage.appendFrag g.type g.getID g } : GState).emit [.generatedFull g.getID v] = s1 at hr
    have e1 : s1.storage = s.storage.appendFrag g.type g.getID g := by rw [← hs1]; rfl
    have e2 : s1.blacklist = s.blacklist := by rw [← hs1]; rfl
    have e3 : s1.timers = s.timers := by rw [← hs1]; rfl
    have h1 : RInv cf pub S s0 X s1 := h.append hS ho hg e1 e2 e3
    have hvt : v.type = fullOfInit o.type := by
      rw [generateFULL_type hgen, getTargetType_frag hfrag, hg.1, fragTarget_fragOfInit (hS.type o ho)]
    have hfull : v.type.isFull = true := by rw [hvt]; rcases hS.type o ho with h | h <;> rw [h] <;> rfl
    have hlist : s1.storage.fragList (fragOfInit o.type) (partID o) = s.storage.fragList g.type g.getID ++ [g] := by
      rw [e1, ← hg.1, ← hg.getID]; exact Storage.fragList_appendFrag_same _ _ _ _ hfrag
    have hpay : v.payload = o.payload := by
      obtain ⟨f, hf, e⟩ := generateFULL_payload hgen
      rw [e]
      rw [← hlist] at hf
      cases hget : (s1.storage.frags (fragOfInit o.type)).get (partID o) with
      | none => unfold Storage.fragList at hf; rw [hget] at hf; simp at hf
      | some l =>
        obtain ⟨_, o', h2, h3, h4, h5⟩ := h1.frags _ _ _ hget
        cases partID_inj hS ho h2 h4
        exact (h5 f (by unfold Storage.fragList at hf; rw [hget] at hf; exact hf)).1
    have hno : ∀ k v', (s1.storage.objs v.type).get k = some v' → k.entity ≠ o.payload.p0 := by
      intro k v' hk he
      rw [e1, Storage.objs_appendFrag] at hk
      obtain ⟨o', h2, h3, h4, h5⟩ := h.fulls _ _ _ hfull hk
      have : o' = o := hS.one o' h2 o ho
        (fullOfInit_inj (hS.type o' h2) (hS.type o ho) (by rw [← h3, hvt])) (by rw [← h4, he])
      subst this
      rw [← hg.1, ← hg.getID] at h5
      omega
    have hbl : s1.blacklist.has v.payload.p0 = false := by
      rw [e2, hpay, ← hg.2.2.1]; exact hb
    have h2 : RInv cf pub S s0 X s2 ∧ s2.timers = s1.timers := by
      have hs2 : s2 = (handle cf clk s1 v).1 := by rw [hr]
      rcases handle_full_cases cf clk s1 v hfull with hc | hc | ⟨_, hc⟩ | ⟨_, _, _, hc⟩
      · rw [hs2, hc]; exact ⟨h1, rfl⟩
      · rw [hs2, hc]
        exact ⟨h1.congr (by simp) (by simp) (by simp) (by simp), by simp⟩
      · rw [hs2, hc]
        exact ⟨h1.congr (by simp) (by simp) (by simp) (by simp), by simp⟩
      · rw [hs2, hc]
        refine ⟨h1.putFull hS ho hvt hpay (by rw [hlist, List.length_append]; simp; omega) hno (by simp) ?_ (by simp), by simp⟩
        simp only [blacklist_noteConverge, blacklist_sendToMonitor, storedState, blacklist_storeNote]
        unfold storeBlacklist
        rw [hvt]
        rcases hS.type o ho with h | h <;> rw [h] <;> rfl
    cases b
    · exact ⟨h2.1.congr (by simp) (by simp) (by simp) (by simp), by simp [h2.2, e3]⟩
    · exact ⟨h2.1, by simp [h2.2, e3]⟩

/-- Handling a statement: afterwards it is held. -/
theorem RInv.handleInit (hS : Faultless cf S) (hT : 0 < cf.crypto.threshold) (hal : ∀ o ∈ S, s0.blacklist.has o.payload.p0 = false)
    (h : RInv cf pub S s0 X s) (hinv : StorageInv cf s.storage) (clk : Clock) {o : GossipObj} (ho : o ∈ S) :
    RInv cf pub S s0 X (handle cf clk s o).1 ∧ ((handle cf clk s o).1.storage.objs o.type).get o.getID = some o := by
  have hobj : o.type.isObj = true := by rcases hS.type o ho with h | h <;> rw [h] <;> rfl
  have hini : o.type.isInit = true := by rcases hS.type o ho with h | h <;> rw [h] <;> rfl
  have hheld : ∀ v, (s.storage.objs o.type).get o.getID = some v → v = o := by
    intro v hv
    obtain ⟨h1, h2, h3⟩ := h.inits _ _ _ hini hv
    exact hS.one v h1 o ho h2 (congrArg GossipID.entity h3)
  cases hget : (s.storage.objs o.type).get o.getID with
  | some v =>
    have hd : dupCheck s o = true := (dupCheck_obj hobj).2 ⟨v, hget, by rw [hheld v hget]⟩
    rw [dup_again cf clk s o hd]
    exact ⟨h, by rw [hget, hheld v hget]⟩
  | none =>
    have hm : isMalicious s o = false := by
      unfold isMalicious getObject
      rcases hS.type o ho with h | h <;> rw [h] at hget ⊢ <;> simp [hget, GossipObj.zero, hS.signer o ho]
    rw [handle_init_new cf clk s o hinv hT (hS.type o ho) (hS.valid o ho) (dupCheck_false_of_none hobj hget)
      (by rw [h.bl]; exact hal o ho) hm]
    generalize hs' : ({ sendToMonitor (sendToGossipers cf (storedState cf clk s o) o) o with timers := s.timers ++ [o] } : GState) = s'
    have e1 : s'.storage = s.storage.putObj o.type o.getID o := by rw [← hs']; simp
    have e2 : s'.blacklist = s.blacklist := by
      rw [← hs']
      simp only [blacklist_sendToMonitor, blacklist_sendToGossipers, storedState, blacklist_storeNote]
      unfold storeBlacklist
      rcases hS.type o ho with h | h <;> rw [h]
    have e3 : s'.timers = s.timers ++ [o] := by rw [← hs']
    have hne : ∀ t, t ≠ o.type → s'.storage.objs t = s.storage.objs t := by
      intro t ht; rw [e1]; exact Storage.objs_putObj_ne _ _ _ ht
    have hfr : ∀ t, s'.storage.frags t = s.storage.frags t := by intro t; rw [e1]; simp
    have hfl : ∀ t k, s'.storage.fragList t k = s.storage.fragList t k := by intro t k; unfold Storage.fragList; rw [hfr]
    have hfull : ∀ t, t.isFull = true → t ≠ o.type := by
      rintro t ht rfl; rcases hS.type o ho with h | h <;> rw [h] at ht <;> cases ht
    have hsame : s'.storage.objs o.type = (s.storage.objs o.type).set o.getID o := by
      rw [e1]; exact Storage.objs_putObj_same _ _ _ _ hobj
    refine ⟨⟨?_, e2.trans h.bl, ?_, ?_, by intro t k l; rw [hfr]; exact h.frags t k l, ?_, ?_, ?_⟩, by rw [hsame]; simp⟩
    · rw [hne _ (by rcases hS.type o ho with h | h <;> rw [h] <;> simp)]; exact h.con
    · rw [e3]; intro g hg
      rcases List.mem_append.1 hg with hg | hg
      · exact h.timers g hg
      · simp only [List.mem_singleton] at hg; subst hg; exact ho
    · intro t k v hi hk
      by_cases e : t = o.type
      · subst e
        rw [hsame, GoMap.get_set] at hk
        split at hk
        · rename_i e; cases hk; exact ⟨ho, rfl, e.symm⟩
        · exact h.inits _ _ _ hi hk
      · rw [hne t e] at hk; exact h.inits _ _ _ hi hk
    · intro t k v hi
      rw [hne t (hfull t hi)]
      simp only [hfl]
      exact h.fulls t k v hi
    · intro t k k' v v' hi; rw [hne t (hfull t hi)]; exact h.uniq t k k' v v' hi
    · intro o' ho' hk
      rw [e3]
      by_cases e : o' = o
      · subst e; right; left; simp
      · have hk' : (s.storage.objs o'.type).get o'.getID = some o' := by
          by_cases et : o'.type = o.type
          · rw [et, hsame, GoMap.get_set] at hk
            split at hk
            · cases hk; exact absurd rfl e
            · rw [et]; exact hk
          · rw [hne _ et] at hk; exact hk
        rcases h.own o' ho' hk' with h1 | h1 | ⟨f, h1, h2⟩
        · exact .inl h1
        · right; left; simp [h1]
        · exact .inr (.inr ⟨f, h1, h2.congr (hfl _ _)⟩)

/-- Conditions on the gossiper under which a period without faults is recorded as such. -/
structure RecordsPeriods (cf : GConf L) (pub : L.BlsSec → L.BlsPub) : Prop where
  bls : cf.crypto.thresholdScheme = go!"bls"
  threshold : 1 ≤ cf.crypto.threshold
  self : RegisteredSigner cf.crypto pub cf.crypto ∧ Safe cf.crypto.selfID

/-- The gossiper's own fragment on a statement. -/
theorem generateFRAG_part {o f : GossipObj} (hc : RecordsPeriods cf pub) (hS : Faultless cf S) (ho : o ∈ S)
    (h : generateFRAG cf o = some f) : PartOf cf pub o f := by
  unfold generateFRAG at h
  cases hst : (cf.crypto.thresholdSign o.payload.cat).1.toStr with
  | none => rw [hst] at h; cases h
  | some str =>
    rw [hst] at h
    simp only [Option.some.injEq] at h
    subst h
    refine ⟨?_, rfl, rfl, cf.crypto, hc.self.1, hc.self.2, hst⟩
    rcases hS.type o ho with h | h <;> simp [h, fragOfInit]

theorem mem_eraseIdx_other {α : Type _} {l : List α} {i : Nat} {a b : α} (h : l[i]? = some a) (hb : b ∈ l) (hne : b ≠ a) :
    b ∈ l.eraseIdx i := by
  induction l generalizing i with
  | nil => cases hb
  | cons x t ih =>
    cases i with
    | zero =>
      simp only [List.getElem?_cons_zero, Option.some.injEq] at h
      subst h
      rcases List.mem_cons.1 hb with e | e
      · exact absurd e hne
      · simpa using e
    | succ i =>
      rw [List.eraseIdx_cons_succ]
      rcases List.mem_cons.1 hb with e | e
      · simp [e]
      · exact List.mem_cons_of_mem _ (ih (by simpa using h) e)

/-- The object that is handled when `d` is received. -/
def seenAs (cf : GConf L) (s : GState) (d : GossipObj) : GossipObj :=
  if cf.optMode = true ∧ d.type = .REV_FRAG then reconstructPayload s d else d

theorem recv_frag_eq (clk : Clock) (n : Int) (d : GossipObj) (hd : d.type.isFrag = true) :
    gossipObjectHandler cf clk n s d = handle cf clk { s with trafficReceived := s.trafficReceived + n } (seenAs cf s d) := by
  unfold gossipObjectHandler
  have h1 : ¬ (n > cf.optThreshold ∧ d.type = .REV_INIT) := by
    rintro ⟨_, h⟩; rw [h] at hd; simp [GType.isFrag] at hd
  simp only [h1, if_false]
  rfl

/-- One event of a period without faults. -/
theorem RInv.step (hc : RecordsPeriods cf pub) (hS : Faultless cf S)
    (hal : ∀ o ∈ S, s0.blacklist.has o.payload.p0 = false) (h : RInv cf pub S s0 (fun _ => False) s) (hr : GReach cf s)
    (e : Clock × GOp) (he : FaultlessOp cf pub S e.2)
    (hseen : ∀ n d o, e.2 = .recv n d → o ∈ S → CarriesPart cf pub o d → PartOf cf pub o (seenAs cf s d)) :
    RInv cf pub S s0 (fun _ => False) (gstep cf s e) ∧ (s.crashed = false → ∀ n o, e.2 = .recv n o → o ∈ S →
      ((gstep cf s e).storage.objs o.type).get o.getID = some o) := by
  obtain ⟨clk, op⟩ := e
  unfold gstep
  split
  · rename_i hcr; exact ⟨h, by intro h'; rw [hcr] at h'; cases h'⟩
  · cases op with
    | periodic => exact absurd he id
    | notify n x =>
      exact ⟨h.congr (by simp) (by simp) (by simp) (by unfold notificationHandler; simp only; split <;> rfl), by simp⟩
    | request n x =>
      exact ⟨h.congr (by simp) (by simp) (by simp) (by unfold requestHandler; simp only; split <;> rfl), by simp⟩
    | recv n d =>
      simp only
      rcases he with hd | ⟨o, ho, hd⟩
      · rw [recv_verified cf clk n s d (by rcases hS.type d hd with h | h <;> simp [h]) (hS.valid d hd)]
        obtain ⟨h1, h2⟩ := RInv.handleInit hS (by have := hc.threshold; omega) hal
          (h.congr (s' := recvState cf n s d) (by simp) (by simp) (by simp) (by simp))
          (recvState_inv cf n s d (hr.storageInv cf) (hS.valid d hd)) clk hd
        refine ⟨h1, ?_⟩
        intro _ n' o' e _
        cases e
        exact h2
      · have hfr : d.type.isFrag = true := by rw [hd.1.1]; exact fragOfInit_isFrag (hS.type o ho)
        rw [recv_frag_eq clk n d hfr]
        refine ⟨(RInv.handleFrag hS (h.congr (s' := { s with trafficReceived := s.trafficReceived + n }) (fun _ => rfl) (fun _ => rfl) rfl rfl)
          clk ho (hseen n d o rfl ho hd)).1, ?_⟩
        intro _ n' o' e ho'
        cases e
        have : d.type = fragOfInit o.type := hd.1.1
        rcases hS.type d ho' with h1 | h1 <;> rcases hS.type o ho with h2 | h2 <;> rw [h1, h2] at this <;> cases this
    | fire i =>
      simp only
      refine ⟨?_, by simp⟩
      cases hti : s.timers[i]? with
      | none => exact h
      | some o =>
        simp only
        have ho : o ∈ S := h.timers o (List.mem_of_getElem? hti)
        have hb : s.blacklist.has o.payload.p0 = false := by rw [h.bl]; exact hal o ho
        obtain ⟨f, hf⟩ := generateFRAG_some hc.bls o
        have hpart := generateFRAG_part hc hS ho hf
        have e1 : timerFire cf clk { s with timers := s.timers.eraseIdx i } o =
            handle cf clk (({ s with timers := s.timers.eraseIdx i } : GState).emit [.signed f]) f := by
          unfold timerFire signStatement
          rw [if_neg (by simp [inBlacklist, hb]), hf]
          rfl
        rw [e1]
        generalize hs1 : (({ s with timers := s.timers.eraseIdx i } : GState).emit [.signed f]) = s1
        have a1 : s1.storage = s.storage := by rw [← hs1]; rfl
        have a2 : s1.blacklist = s.blacklist := by rw [← hs1]; rfl
        have a3 : s1.timers = s.timers.eraseIdx i := by rw [← hs1]; rfl
        have h1 : RInv cf pub S s0 (· = o) s1 := by
          refine ⟨by rw [a1]; exact h.con, a2.trans h.bl, ?_, by rw [a1]; exact h.inits, by rw [a1]; exact h.frags,
            by rw [a1]; exact h.fulls, by rw [a1]; exact h.uniq, ?_⟩
          · rw [a3]; exact fun g hg => h.timers g (List.mem_of_mem_eraseIdx hg)
          · rw [a1, a3]
            intro o' ho' hk
            by_cases e : o' = o
            · exact .inl e
            · right
              rcases h.own o' ho' hk with h' | h' | ⟨f', h', h''⟩
              · exact h'.elim
              · left
                exact mem_eraseIdx_other hti h' e
              · exact .inr ⟨f', h', h''.congr (by rw [a1])⟩
        have hfull1 : FullsSent cf s1 := by
          have := hr.fullsSent
          intro t k v ht hk
          rw [a1] at hk
          obtain ⟨x1, x2, x3, x4⟩ := this t k v ht hk
          exact ⟨x1, x2, x3, by rw [← hs1]; simp [x4]⟩
        obtain ⟨h2, h3⟩ := RInv.handleFrag hS h1 clk ho hpart
        have hkept : Kept cf f.type f.getID f.sig (handle cf clk s1 f).1 := by
          rcases Kept.handled hfull1 clk f (by rw [hpart.1]; exact fragOfInit_isFrag (hS.type o ho)) with h' | h'
          · rw [a2, hpart.2.2.1, hb] at h'; cases h'
          · exact h'
        have h4 : RInv cf pub S s0 (fun _ => False) (handle cf clk s1 f).1 := by
          refine ⟨h2.con, h2.bl, h2.timers, h2.inits, h2.frags, h2.fulls, h2.uniq, ?_⟩
          intro o' ho' hk
          rcases h2.own o' ho' hk with h' | h' | h'
          · subst h'; exact .inr (.inr ⟨f, hf, hkept⟩)
          · exact .inr (.inl h')
          · exact .inr (.inr h')
        rcases hh : handle cf clk s1 f with ⟨s2, b⟩
        rw [hh] at h4
        cases b
        · exact h4
        · exact h4.congr (fun _ => rfl) (fun _ => rfl) rfl rfl

theorem RInv.start (hS : Faultless cf S) (hs : PeriodStart S s0) : RInv cf pub S s0 (fun _ => False) s0 where
  con := rfl
  bl := rfl
  timers := by rw [hs.timers]; simp
  inits := by intro t k o hi hk; have := hs.held t k o (heldAs_iff.2 hk); subst this; cases hi
  frags := by intro t k l hk; exact absurd (fragsAt_iff.2 hk) (hs.frags t k l)
  fulls := by intro t k o hi hk; have := hs.held t k o (heldAs_iff.2 hk); subst this; cases hi
  uniq := by intro t k k' o o' hi hk; have := hs.held t k o (heldAs_iff.2 hk); subst this; cases hi
  own := by
    intro o ho hk
    have h1 := hs.held _ _ _ (heldAs_iff.2 hk)
    rcases hS.type o ho with h | h <;> rw [h] at h1 <;> cases h1

/-- What is saved for the restoration of payloads. -/
def PSaved (S : List GossipObj) (s : GState) : Prop :=
  ∀ k v, s.storage.revPayload.get k = some v → v ∈ S ∧ v.type = .REV_INIT ∧ v.getID = k

theorem revPayload_gstep (e : Clock × GOp) (hp : e.2 ≠ .periodic) (hn : ∀ n d, e.2 ≠ .recv n d) :
    (gstep cf s e).storage.revPayload = s.storage.revPayload := by
  obtain ⟨clk, op⟩ := e
  unfold gstep
  split
  · rfl
  · cases op with
    | periodic => exact absurd rfl hp
    | recv n d => exact absurd rfl (hn n d)
    | notify n x => simp
    | request n x => simp
    | fire i =>
      simp only
      cases s.timers[i]? with
      | none => rfl
      | some o =>
        simp only
        have : (timerFire cf clk { s with timers := s.timers.eraseIdx i } o).1.storage.revPayload = s.storage.revPayload := by
          unfold timerFire
          split
          · rfl
          · unfold signStatement
            cases generateFRAG cf o with
            | none => rfl
            | some f => simp only [Option.map_some]; rw [handle_revPayload]; rfl
        rcases h : timerFire cf clk { s with timers := s.timers.eraseIdx i } o with ⟨s', b⟩
        rw [h] at this
        cases b <;> exact this

/-- A fragment is handled as a part of its statement, if in optimisation mode the statement has been saved. -/
theorem seenAs_part {o d : GossipObj} (hc : CarriesPart cf pub o d)
    (hs : cf.optMode = true ∧ d.type = .REV_FRAG → s.storage.revPayload.get ⟨d.period, .REV_INIT, d.payload.p0⟩ = some o) :
    PartOf cf pub o (seenAs cf s d) := by
  unfold seenAs
  by_cases h : cf.optMode = true ∧ d.type = .REV_FRAG
  · rw [if_pos h]
    have e : reconstructPayload s d = { d with payload := o.payload } := by
      unfold reconstructPayload GossipObj.getID
      rw [hs h]
      rfl
    rw [e]
    exact hc.1
  · rw [if_neg h]
    rcases hc.2.2 with h' | h'
    · have := hc.1; rw [← h'] at this; exact this
    · exact absurd h' h

/-- The state after any part of a period without faults. -/
structure PeriodInv (cf : GConf L) (pub : L.BlsSec → L.BlsPub) (S : List GossipObj) (s0 : GState) (a : List (Clock × GOp)) (s : GState) :
    Prop where
  round : RInv cf pub S s0 (fun _ => False) s
  saved : PSaved S s
  got : s.crashed = false → ∀ clk n o, (clk, .recv n o) ∈ a → o ∈ S → o.type = .REV_INIT → n > cf.optThreshold →
    s.storage.revPayload.get o.getID = some o

theorem PeriodInv.seen (hS : Faultless cf S) {a b : List (Clock × GOp)} (h : PeriodInv cf pub S s0 a s) (hcr : s.crashed = false)
    {clk : Clock} {n : Int} {d o : GossipObj} (hord : InOrder cf S (a ++ (clk, .recv n d) :: b)) (ho : o ∈ S)
    (hd : CarriesPart cf pub o d) : PartOf cf pub o (seenAs cf s d) := by
  refine seenAs_part hd ?_
  rintro ⟨hm, ht⟩
  obtain ⟨clk', n', o', h1, h2, h3, h4, h5⟩ := hord hm a b clk n d rfl ht
  have e1 : fragOfInit o.type = .REV_FRAG := by rw [← ht]; exact hd.1.1.symm
  have e2 : o.type = .REV_INIT := fragOfInit_inj (hS.type o ho) (.inr rfl) (by rw [e1]; rfl)
  have e3 : o' = o := hS.one o' h2 o ho (by rw [h3, e2]) (by rw [h4, hd.2.1])
  subst e3
  have := h.got hcr clk' n' o' h1 h2 h3 h5
  have hper : d.period = o'.period := hd.1.2.1
  rw [hper, hd.2.1, ← h3]
  exact this

theorem PeriodInv.step (hc : RecordsPeriods cf pub) (hS : Faultless cf S)
    (hal : ∀ o ∈ S, s0.blacklist.has o.payload.p0 = false) {a b : List (Clock × GOp)} {e : Clock × GOp}
    (h : PeriodInv cf pub S s0 a s) (hr : GReach cf s) (he : FaultlessOp cf pub S e.2) (hord : InOrder cf S (a ++ e :: b)) :
    PeriodInv cf pub S s0 (a ++ [e]) (gstep cf s e) := by
  by_cases hcr : s.crashed = true
  · rw [gstep_crashed cf s e hcr]
    exact ⟨h.round, h.saved, by intro h'; rw [hcr] at h'; cases h'⟩
  have hcr : s.crashed = false := by simpa using hcr
  obtain ⟨clk, op⟩ := e
  have h1 := (RInv.step hc hS hal h.round hr (clk, op) he (by
    intro n d o e ho hd
    dsimp only at e
    subst e
    exact h.seen hS hcr hord ho hd)).1
  have hkeep : (gstep cf s (clk, op)).storage.revPayload = s.storage.revPayload →
      (∀ n o, op = .recv n o → o ∈ S → o.type = .REV_INIT → ¬ n > cf.optThreshold) →
      PeriodInv cf pub S s0 (a ++ [(clk, op)]) (gstep cf s (clk, op)) := by
    intro hp hno
    refine ⟨h1, by unfold PSaved; rw [hp]; exact h.saved, ?_⟩
    rw [hp]
    intro _ clk' n o hm ho ht hn
    rcases List.mem_append.1 hm with hm | hm
    · exact h.got hcr clk' n o hm ho ht hn
    · simp only [List.mem_singleton, Prod.mk.injEq] at hm
      exact absurd hn (hno n o hm.2.symm ho ht)
  cases op with
  | periodic => exact absurd he id
  | notify n x => exact hkeep (revPayload_gstep _ (by simp) (by simp)) (by simp)
  | request n x => exact hkeep (revPayload_gstep _ (by simp) (by simp)) (by simp)
  | fire i => exact hkeep (revPayload_gstep _ (by simp) (by simp)) (by simp)
  | recv n d =>
    have e0 : gstep cf s (clk, .recv n d) = (gossipObjectHandler cf clk n s d).1 := by unfold gstep; rw [hcr]; rfl
    rcases he with hd | ⟨o, ho, hd⟩
    · rw [recv_verified cf clk n s d (by rcases hS.type d hd with h | h <;> simp [h]) (hS.valid d hd)] at e0
      by_cases hn : n > cf.optThreshold ∧ d.type = .REV_INIT
      · have e1 : (gstep cf s (clk, .recv n d)).storage.revPayload = s.storage.revPayload.set d.getID d := by
          rw [e0, handle_revPayload, recvState, if_pos hn]
        have hget : ∀ k v, (s.storage.revPayload.set d.getID d).get k = some v → v ∈ S ∧ v.type = .REV_INIT ∧ v.getID = k := by
          intro k v hv
          rw [GoMap.get_set] at hv
          split at hv
          · rename_i e; cases hv; exact ⟨hd, hn.2, e.symm⟩
          · exact h.saved k v hv
        refine ⟨h1, by unfold PSaved; rw [e1]; exact hget, ?_⟩
        rw [e1]
        intro _ clk' n' o' hm ho' ht' hn'
        rw [GoMap.get_set]
        rcases List.mem_append.1 hm with hm | hm
        · split
          · rename_i e
            rw [hS.one d hd o' ho' (by rw [hn.2, ht']) (congrArg GossipID.entity e).symm]
          · exact h.got hcr clk' n' o' hm ho' ht' hn'
        · simp only [List.mem_singleton, Prod.mk.injEq, GOp.recv.injEq] at hm
          rw [hm.2.2]; simp
      · refine hkeep ?_ ?_
        · rw [e0, handle_revPayload, recvState, if_neg hn]
        · intro n' o' e _ ht hn'
          cases e
          exact hn ⟨hn', ht⟩
    · have hfr : d.type.isFrag = true := by rw [hd.1.1]; exact fragOfInit_isFrag (hS.type o ho)
      refine hkeep ?_ ?_
      · rw [e0, recv_frag_eq clk n d hfr, handle_revPayload]
      · intro n' o' e _ ht
        cases e
        rw [ht] at hfr; cases hfr

theorem PeriodInv.run (hc : RecordsPeriods cf pub) (hS : Faultless cf S) (hr : GReach cf s) (hs : PeriodStart S s)
    (h : List (Clock × GOp)) (he : ∀ e ∈ h, FaultlessOp cf pub S e.2) (hord : InOrder cf S h) :
    ∀ a b, h = a ++ b → PeriodInv cf pub S s a (grun cf s a) := by
  intro a
  induction a using snoc_ind with
  | h0 =>
    intro b _
    refine ⟨RInv.start hS hs, ?_, by simp⟩
    intro k v hv
    have e : s.storage.revPayload.get k = some v := hv
    rw [hs.saved k] at e
    cases e
  | h1 a e ih =>
    intro b hb
    have e1 : h = a ++ e :: b := by rw [hb]; simp
    have e2 : grun cf s (a ++ [e]) = gstep cf (grun cf s a) e := by simp [grun, List.foldl_append]
    rw [e2]
    exact (ih (e :: b) e1).step hc hS hs.allowed (hr.run cf a) (he e (by simp [e1])) (by rw [← e1]; exact hord)

/-- A statement that is held stays held. -/
theorem RInv.stays (hS : Faultless cf S) (hr : GReach cf s) (es : List (Clock × GOp)) (hw : ∀ e ∈ es, e.2 ≠ .periodic)
    (hend : RInv cf pub S s0 (fun _ => False) (grun cf s es)) {o : GossipObj} (ho : o ∈ S)
    (hk : (s.storage.objs o.type).get o.getID = some o) : ((grun cf s es).storage.objs o.type).get o.getID = some o := by
  have hP : SeqClosed cf (fun s => (s.storage.objs o.type).has o.getID = true) := by
    refine FineClosed.core cf ?_ ?_ ?_ ?_
    · intro s s' h1 _ h; rw [← h1]; exact h
    · intro clk s g h hobj _ _ _ _
      rw [storage_storedState]
      by_cases e : o.type = g.type
      · rw [e, Storage.objs_putObj_same _ _ _ _ hobj, GoMap.has_set, ← e, h]; simp
      · rw [Storage.objs_putObj_ne _ _ _ e]; exact h
    · intro s g h _ _ _ _; simpa using h
    · intro s g h _ _; cases ht : o.type <;> rw [ht] at h <;> exact h
  have h1 := hP.run cf hr es hw ((GoMap.has_iff _ _).2 ⟨o, hk⟩)
  obtain ⟨v, hv⟩ := (GoMap.has_iff _ _).1 h1
  have hini : o.type.isInit = true := by rcases hS.type o ho with h | h <;> rw [h] <;> rfl
  obtain ⟨a1, a2, a3⟩ := hend.inits _ _ _ hini hv
  rw [hv, hS.one v a1 o ho a2 (congrArg GossipID.entity a3)]

theorem count_of_rel {K α : Type} {P : K → Prop} {R : α → K → Prop} (l : List α) (hn : l.Nodup)
    (h1 : ∀ a ∈ l, ∃ k, P k ∧ R a k) (h2 : ∀ k, P k → ∃ a ∈ l, R a k)
    (h3 : ∀ a ∈ l, ∀ a' ∈ l, ∀ k, R a k → R a' k → a = a') (h4 : ∀ a ∈ l, ∀ k k', P k → P k' → R a k → R a k' → k = k') :
    Count P l.length := by
  suffices h : ∃ ks : List K, ks.Nodup ∧ (∀ k, k ∈ ks ↔ P k ∧ ∃ a ∈ l, R a k) ∧ l.length = ks.length by
    obtain ⟨ks, a, b, c⟩ := h
    exact ⟨ks, a, fun k => (b k).trans ⟨fun h => h.1, fun h => ⟨h, h2 k h⟩⟩, c⟩
  clear h2
  induction l with
  | nil => exact ⟨[], List.nodup_nil, by simp, rfl⟩
  | cons a t ih =>
    rw [List.nodup_cons] at hn
    obtain ⟨ks, b1, b2, b3⟩ := ih hn.2 (fun x hx => h1 x (by simp [hx])) (fun x hx y hy => h3 x (by simp [hx]) y (by simp [hy]))
      (fun x hx => h4 x (by simp [hx]))
    obtain ⟨k, hk, hr⟩ := h1 a (by simp)
    refine ⟨k :: ks, ?_, ?_, by simp [b3]⟩
    · rw [List.nodup_cons]
      refine ⟨?_, b1⟩
      intro hm
      obtain ⟨_, a', ha', hr'⟩ := (b2 k).1 hm
      have := h3 a (by simp) a' (by simp [ha']) k hr hr'
      subst this
      exact hn.1 ha'
    · intro k'
      rw [List.mem_cons, b2]
      constructor
      · rintro (rfl | ⟨p, a', ha', hr'⟩)
        · exact ⟨hk, a, by simp, hr⟩
        · exact ⟨p, a', by simp [ha'], hr'⟩
      · rintro ⟨p, a', ha', hr'⟩
        rcases List.mem_cons.1 ha' with rfl | ha'
        · exact .inl (h4 a' (by simp) k' k p hk hr' hr)
        · exact .inr ⟨p, a', ha', hr'⟩

/-- Different registered gossipers have different signature pairs. -/
theorem distinct_sigs (J : L.JsonLaws) (B : L.BlsLaws pub) (msg : Str) {Q : Sig2 → Prop} (ss : List (CryptoConfig L))
    (hn : (ss.map (·.selfID)).Nodup) (hreg : ∀ a ∈ ss, RegisteredSigner cf.crypto pub a ∧ Safe a.selfID)
    (hq : ∀ a ∈ ss, ∃ σ : Sig2, (a.thresholdSign msg).1.toStr = some σ.s0 ∧ Q σ) :
    ∃ sigs : List Sig2, sigs.length = ss.length ∧ sigs.Nodup ∧ ∀ σ ∈ sigs, Q σ := by
  suffices h : ∃ sigs : List Sig2, sigs.length = ss.length ∧ sigs.Nodup ∧
      (∀ σ ∈ sigs, Q σ ∧ ∃ a ∈ ss, (a.thresholdSign msg).1.toStr = some σ.s0) by
    obtain ⟨sigs, a, b, c⟩ := h
    exact ⟨sigs, a, b, fun σ hσ => (c σ hσ).1⟩
  induction ss with
  | nil => exact ⟨[], rfl, List.nodup_nil, by simp⟩
  | cons a ss ih =>
    rw [List.map_cons, List.nodup_cons] at hn
    obtain ⟨sigs, h1, h2, h3⟩ := ih hn.2 (fun b hb => hreg b (by simp [hb])) (fun b hb => hq b (by simp [hb]))
    obtain ⟨σ, e4, hσ⟩ := hq a (by simp)
    refine ⟨σ :: sigs, by simp [h1], ?_, ?_⟩
    · rw [List.nodup_cons]
      refine ⟨?_, h2⟩
      intro hm
      obtain ⟨_, b, hb, e5⟩ := h3 _ hm
      rw [← e4] at e5
      obtain ⟨ra, sa⟩ := hreg a (by simp)
      obtain ⟨rb, sb⟩ := hreg b (by simp [hb])
      rw [thresholdSign_eq a ra.1, thresholdSign_eq b rb.1] at e5
      obtain ⟨x, hx1, hx2⟩ := C10_fragment_roundtrip J pub B (L.blsSign a.thresholdSecretKey msg) a.selfID sa
      obtain ⟨y, hy1, hy2⟩ := C10_fragment_roundtrip J pub B (L.blsSign b.thresholdSecretKey msg) b.selfID sb
      simp only at e5
      rw [hx1, hy1] at e5
      cases e5
      rw [hx2] at hy2
      have e6 : a.selfID = b.selfID := congrArg (fun p : SigFragment L × Bool => p.1.id) hy2
      exact hn.1 (by rw [e6]; exact List.mem_map.2 ⟨b, hb, rfl⟩)
    · intro τ hτ
      rcases List.mem_cons.1 hτ with rfl | hτ
      · exact ⟨hσ, a, by simp, e4⟩
      · obtain ⟨c, b, hb, e⟩ := h3 τ hτ; exact ⟨c, b, by simp [hb], e⟩

/-- At the end of the history `h` that started in `s`, the fragment of `a` on the statement `o` was received, or `a` is the
gossiper itself and its timer for `o` has run. -/
def Contributed (cf : GConf L) (pub : L.BlsSec → L.BlsPub) (s : GState) (h : List (Clock × GOp)) (o : GossipObj) (a : CryptoConfig L) : Prop :=
  (∃ clk n d, (clk, .recv n d) ∈ h ∧ CarriesPart cf pub o d ∧ (a.thresholdSign o.payload.cat).1.toStr = some d.sig.s0) ∨ (a = cf.crypto ∧ o ∉ (grun cf s h).timers)

/-- `n` of the statements in `S` are of type `t`. -/
def howMany (S : List GossipObj) (t : GType) : Nat := (S.filter fun o => o.type = t).length

/-- What a period without faults leaves in a gossiper that got every statement and Threshold fragments on each. -/
structure RoundDone (cf : GConf L) (pub : L.BlsSec → L.BlsPub) (S : List GossipObj) (s0 s : GState) : Prop where
  inv : RInv cf pub S s0 (fun _ => False) s
  held : ∀ o ∈ S, (s.storage.objs o.type).get o.getID = some o
  full : ∀ o ∈ S, ((s.storage.fragList (fragOfInit o.type) (partID o)).length : Int) = cf.crypto.threshold
  made : ∀ o ∈ S, ∃ k, (∃ v, HeldAs s.storage k v (fullOfInit o.type)) ∧ k.entity = o.payload.p0
  threshold : 1 ≤ cf.crypto.threshold

theorem roundDone (J : L.JsonLaws) (B : L.BlsLaws pub) (hc : RecordsPeriods cf pub) (hS : Faultless cf S) (hr : GReach cf s)
    (hs : PeriodStart S s) (h : List (Clock × GOp)) (hh : ∀ e ∈ h, FaultlessOp cf pub S e.2) (hord : InOrder cf S h)
    (hcr : (grun cf s h).crashed = false) (hdel : ∀ o ∈ S, ∃ clk n, (clk, .recv n o) ∈ h)
    (hsig : ∀ o ∈ S, ∃ signers : List (CryptoConfig L), (signers.map (·.selfID)).Nodup ∧
      cf.crypto.threshold ≤ (signers.length : Int) ∧
      ∀ a ∈ signers, RegisteredSigner cf.crypto pub a ∧ Safe a.selfID ∧ Contributed cf pub s h o a) :
    RoundDone cf pub S s (grun cf s h) := by
  have hw : ∀ e ∈ h, e.2 ≠ .periodic := by intro e he hp; have := hh e he; rw [hp] at this; exact this
  have hpre := PeriodInv.run hc hS hr hs h hh hord
  have hinv : RInv cf pub S s (fun _ => False) (grun cf s h) := (hpre h [] (by simp)).round
  have hup : ∀ a b, h = a ++ b → (grun cf s a).crashed = false := by
    intro a b e
    cases hc' : (grun cf s a).crashed with
    | false => rfl
    | true =>
      have e' : grun cf s h = grun cf (grun cf s a) b := by rw [e]; simp [grun, List.foldl_append]
      rw [e', grun_crashed cf _ _ hc', hc'] at hcr; cases hcr
  have hheld : ∀ o ∈ S, ((grun cf s h).storage.objs o.type).get o.getID = some o := by
    intro o ho
    obtain ⟨clk, n, hm⟩ := hdel o ho
    obtain ⟨a, b, e0⟩ := List.append_of_mem hm
    have e : grun cf s h = grun cf (gstep cf (grun cf s a) (clk, .recv n o)) b := by
      rw [e0]; simp [grun, List.foldl_append]
    have hra := hr.run cf a
    have hPa := hpre a _ e0
    obtain ⟨h2, h3⟩ := RInv.step hc hS hs.allowed hPa.round hra (clk, .recv n o) (hh _ hm) (by
      intro n' d o' e' ho' hd
      cases e'
      exact hPa.seen hS (hup a _ e0) (by rw [← e0]; exact hord) ho' hd)
    rw [e] at hinv ⊢
    exact RInv.stays hS (hra.step cf _) b (fun e he => hw e (by simp [e0, he])) hinv ho (h3 (hup a _ e0) n o rfl ho)
  have hbl : ∀ o ∈ S, (grun cf s h).blacklist.has o.payload.p0 = false := by
    intro o ho; rw [hinv.bl]; exact hs.allowed o ho
  have hlong : ∀ o ∈ S, cf.crypto.threshold ≤ (((grun cf s h).storage.fragList (fragOfInit o.type) (partID o)).length : Int) := by
    intro o ho
    obtain ⟨signers, hn, hlen, hreg⟩ := hsig o ho
    obtain ⟨sigs, a1, a2, a3⟩ := distinct_sigs (cf := cf) J B o.payload.cat
      (Q := fun σ => Kept cf (fragOfInit o.type) (partID o) σ (grun cf s h)) signers hn (fun a ha => ⟨(hreg a ha).1, (hreg a ha).2.1⟩) (by
        intro a ha
        rcases (hreg a ha).2.2 with ⟨clk, n, d, hd, hpart, e4⟩ | ⟨rfl, ht⟩
        · refine ⟨d.sig, e4, ?_⟩
          obtain ⟨a, b, e0⟩ := List.append_of_mem hd
          have e : grun cf s h = grun cf (gstep cf (grun cf s a) (clk, .recv n d)) b := by
            rw [e0]; simp [grun, List.foldl_append]
          have hra := hr.run cf a
          have hPa := hpre a _ e0
          have hcra := hup a _ e0
          have hseen := hPa.seen hS hcra (by rw [← e0]; exact hord) ho hpart
          have hfr : d.type.isFrag = true := by rw [hpart.1.1]; exact fragOfInit_isFrag (hS.type o ho)
          have hk : Kept cf (fragOfInit o.type) (partID o) d.sig (gstep cf (grun cf s a) (clk, .recv n d)) := by
            have e1 : gstep cf (grun cf s a) (clk, .recv n d) = (gossipObjectHandler cf clk n (grun cf s a) d).1 := by
              unfold gstep; rw [hcra]; rfl
            rw [e1, recv_frag_eq clk n d hfr]
            have hsig' : (seenAs cf (grun cf s a) d).sig = d.sig := by
              unfold seenAs reconstructPayload
              split
              · cases (grun cf s a).storage.revPayload.get { d.getID with type := .REV_INIT } <;> rfl
              · rfl
            rcases Kept.handled (s1 := { grun cf s a with trafficReceived := (grun cf s a).trafficReceived + n }) hra.fullsSent clk
              (seenAs cf (grun cf s a) d) (by rw [hseen.1]; exact fragOfInit_isFrag (hS.type o ho)) with hb | hk
            · have hb' : (grun cf s a).blacklist.has o.payload.p0 = true := by rw [← hseen.2.2.1]; exact hb
              rw [hPa.round.bl, hs.allowed o ho] at hb'; cases hb'
            · rw [hseen.1, hseen.getID, hsig'] at hk; exact hk
          obtain ⟨r, hl⟩ := (fragList_closed cf _ (fragOfInit_isFrag (hS.type o ho)) (partID o) _).run cf (hra.step cf (clk, .recv n d)) b
            (fun e he => hw e (by simp [e0, he])) ⟨[], (List.append_nil _).symm⟩
          rw [e]
          exact hk.extend hl
        · rcases hinv.own o ho (hheld o ho) with h' | h' | ⟨f, hf, hk⟩
          · exact h'.elim
          · exact absurd h' ht
          · have hp := generateFRAG_part hc hS ho hf
            rw [hp.1, hp.getID] at hk
            refine ⟨f.sig, ?_, hk⟩
            unfold generateFRAG at hf
            cases hst : (cf.crypto.thresholdSign o.payload.cat).1.toStr with
            | none => rw [hst] at hf; cases hf
            | some str => rw [hst] at hf; simp only [Option.some.injEq] at hf; subst hf; rfl)
    by_cases hl : cf.crypto.threshold ≤ (((grun cf s h).storage.fragList (fragOfInit o.type) (partID o)).length : Int)
    · exact hl
    · have : sigs.length ≤ (((grun cf s h).storage.fragList (fragOfInit o.type) (partID o)).map (·.sig)).length := by
        refine length_le_of_subset a2 ?_
        intro σ hσ
        rcases a3 σ hσ with h' | ⟨f, hf, e⟩
        · exact absurd h' hl
        · exact List.mem_map.2 ⟨f, hf, e⟩
      rw [List.length_map] at this
      omega
  refine ⟨hinv, hheld, ?_, ?_, hc.threshold⟩
  · intro o ho
    rcases ((hr.run cf h).storageInv cf).bound (fragOfInit o.type) (partID o) with h1 | h1
    · have := hlong o ho
      rw [h1] at this
      have := hc.threshold
      simp at *; omega
    · have := hlong o ho; omega
  · intro o ho
    have hR : RoundInv cf pub o.payload (fragOfInit o.type) (partID o) (grun cf s h) := by
      refine (RoundInv.seqClosed J B hc.bls (hS.entity o ho) (fragOfInit_isFrag (hS.type o ho))).run cf hr h hw ⟨hr.fullsSent, ?_⟩
      have : s.storage.fragList (fragOfInit o.type) (partID o) = [] := by
        unfold Storage.fragList
        cases hg : (s.storage.frags (fragOfInit o.type)).get (partID o) with
        | none => rfl
        | some l => exact absurd (fragsAt_iff.2 hg) (hs.frags _ _ _)
      rw [this]
      intro h'
      have := hc.threshold
      simp at h'; omega
    rcases hR.done (hlong o ho) (by
      intro f hf
      cases hget : ((grun cf s h).storage.frags (fragOfInit o.type)).get (partID o) with
      | none => unfold Storage.fragList at hf; rw [hget] at hf; simp at hf
      | some l =>
        obtain ⟨_, o', h2, h3, h4, h5⟩ := hinv.frags _ _ _ hget
        cases partID_inj hS ho h2 h4
        exact h5 f (by unfold Storage.fragList at hf; rw [hget] at hf; exact hf)) with h' | h'
    · rw [hbl o ho] at h'; cases h'
    · rw [fragTarget_fragOfInit (hS.type o ho)] at h'
      obtain ⟨k, v, hk, hp⟩ := h'
      refine ⟨k, ⟨v, heldAs_iff.2 hk⟩, ?_⟩
      rw [← (((hr.run cf h).storageInv cf).objs _ _ _ hk).1, ← hp]
      rfl

theorem RoundDone.countInit (hS : Faultless cf S) (h : RoundDone cf pub S s0 s) {t : GType} (ht : t.isInit = true) :
    Count (fun k => ∃ o, HeldAs s.storage k o t) (howMany S t) := by
  refine count_of_rel (R := fun o k => k = o.getID) _ (hS.nodup.filter _) ?_ ?_ ?_ ?_
  · intro o ho
    obtain ⟨h1, h2⟩ := List.mem_filter.1 ho
    have h2 : o.type = t := by simpa using h2
    exact ⟨o.getID, ⟨o, heldAs_iff.2 (by rw [← h2]; exact h.held o h1)⟩, rfl⟩
  · rintro k ⟨o, hk⟩
    obtain ⟨h1, h2, h3⟩ := h.inv.inits t k o ht (heldAs_iff.1 hk)
    exact ⟨o, List.mem_filter.2 ⟨h1, by simp [h2]⟩, h3.symm⟩
  · rintro o ho o' ho' k rfl e
    exact hS.one o (List.mem_filter.1 ho).1 o' (List.mem_filter.1 ho').1 (congrArg GossipID.type e) (congrArg GossipID.entity e)
  · rintro o _ k k' _ _ rfl e; exact e.symm

theorem RoundDone.countFull (hS : Faultless cf S) (h : RoundDone cf pub S s0 s) {t : GType} (ht : t = .STH_INIT ∨ t = .REV_INIT) :
    Count (fun k => ∃ o, HeldAs s.storage k o (fullOfInit t)) (howMany S t) := by
  have hfull : (fullOfInit t).isFull = true := by rcases ht with rfl | rfl <;> rfl
  refine count_of_rel (R := fun o k => k.entity = o.payload.p0) _ (hS.nodup.filter _) ?_ ?_ ?_ ?_
  · intro o ho
    obtain ⟨h1, h2⟩ := List.mem_filter.1 ho
    have h2 : o.type = t := by simpa using h2
    rw [← h2]
    exact h.made o h1
  · rintro k ⟨v, hk⟩
    obtain ⟨o, b1, b2, b3, _⟩ := h.inv.fulls _ _ _ hfull (heldAs_iff.1 hk)
    exact ⟨o, List.mem_filter.2 ⟨b1, by simp [fullOfInit_inj ht (hS.type o b1) b2]⟩, b3⟩
  · intro o ho o' ho' k e e'
    obtain ⟨a1, a2⟩ := List.mem_filter.1 ho
    obtain ⟨b1, b2⟩ := List.mem_filter.1 ho'
    exact hS.one o a1 o' b1 (by simp at a2 b2; rw [a2, b2]) (by rw [← e, ← e'])
  · rintro o _ k k' ⟨v, hk⟩ ⟨v', hk'⟩ e e'
    exact h.inv.uniq _ k k' v v' hfull (heldAs_iff.1 hk) (heldAs_iff.1 hk') (by rw [e, e'])

theorem RoundDone.countFrag (hS : Faultless cf S) (h : RoundDone cf pub S s0 s) {t : GType} (ht : t = .STH_INIT ∨ t = .REV_INIT)
    {n : Nat} (hn : FragTotal s.storage (fragOfInit t) n) : (n : Int) = cf.crypto.threshold * howMany S t := by
  obtain ⟨ks, h1, h2, rfl⟩ := hn
  have hcount : Count (fun k => ∃ l, FragsAt s.storage k l (fragOfInit t)) ks.length :=
    ⟨ks.map Prod.fst, h1, by intro k; simp [← h2], by simp⟩
  have hcount' : Count (fun k => ∃ l, FragsAt s.storage k l (fragOfInit t)) (howMany S t) := by
    refine count_of_rel (R := fun o k => k = partID o) _ (hS.nodup.filter _) ?_ ?_ ?_ ?_
    · intro o ho
      obtain ⟨a1, a2⟩ := List.mem_filter.1 ho
      have a2 : o.type = t := by simpa using a2
      refine ⟨partID o, ?_, rfl⟩
      have := h.full o a1
      cases hget : (s.storage.frags (fragOfInit o.type)).get (partID o) with
      | none => unfold Storage.fragList at this; rw [hget] at this; have := h.threshold; simp at *; omega
      | some l => exact ⟨l, fragsAt_iff.2 (by rw [← a2]; exact hget)⟩
    · rintro k ⟨l, hk⟩
      obtain ⟨_, o, b1, b2, b3, _⟩ := h.inv.frags _ _ _ (fragsAt_iff.1 hk)
      exact ⟨o, List.mem_filter.2 ⟨b1, by simp [fragOfInit_inj ht (hS.type o b1) b2]⟩, b3⟩
    · rintro o ho o' ho' k rfl e
      exact partID_inj hS (List.mem_filter.1 ho).1 (List.mem_filter.1 ho').1 e
    · rintro o _ k k' _ _ rfl e; exact e.symm
  rw [← C32_counts_determined _ _ _ hcount hcount']
  have hall : ∀ p ∈ ks, (p.2.length : Int) = cf.crypto.threshold := by
    rintro ⟨k, l⟩ hp
    have hk := fragsAt_iff.1 ((h2 k l).1 hp)
    obtain ⟨_, o, b1, b2, b3, _⟩ := h.inv.frags _ _ _ hk
    have := h.full o b1
    rw [← b2, ← b3] at this
    unfold Storage.fragList at this
    rw [hk] at this
    exact this
  clear h1 h2 hcount hcount'
  induction ks with
  | nil => simp
  | cons p t ih =>
    have e1 := ih (fun q hq => hall q (by simp [hq]))
    have e2 := hall p (by simp)
    simp only [List.map_cons, List.sum_cons, List.length_cons]
    push_cast
    rw [e1, e2, Int.mul_add, Int.mul_one, Int.add_comm]

/-- C154, what holds: let a gossiper start a period in which every entity makes at most one STH and one revocation update, all
valid, and nothing but these statements and fragments of registered gossipers on them is received, in any order and number, with
timers, notifications and requests in between. If it executes one request or timer at a time, received each statement and has
the fragments of at least Threshold gossipers on each (its own included), then the entry it logs at the end of the period counts
one statement, one FULL object and Threshold fragments for each, and no accusation; the conflict proofs and the blacklist are those
it had at the start. In optimisation mode the REV_FRAGs may be stripped, and must come after their revocation update, itself longer
than the threshold of the optimisation. Missing: other orders in that mode, and concurrent requests, for which the claim fails
(`C154_violated_by_default_optimisation`, `C154_violated_by_concurrent_duplicates`). -/
theorem C154_faultless_period_partial (J : L.JsonLaws) (B : L.BlsLaws pub) (hc : RecordsPeriods cf pub) (hS : Faultless cf S)
    (hne : S ≠ []) (s : GState) (hr : GReach cf s) (hs : PeriodStart S s) (h : List (Clock × GOp))
    (hh : ∀ e ∈ h, FaultlessOp cf pub S e.2) (hord : InOrder cf S h) (hcr : (grun cf s h).crashed = false)
    (hdel : ∀ o ∈ S, ∃ clk n, (clk, .recv n o) ∈ h)
    (hsig : ∀ o ∈ S, ∃ signers : List (CryptoConfig L), (signers.map (·.selfID)).Nodup ∧
      cf.crypto.threshold ≤ (signers.length : Int) ∧
      ∀ a ∈ signers, RegisteredSigner cf.crypto pub a ∧ Safe a.selfID ∧ Contributed cf pub s h o a) (clk : Clock) :
    ∃ e, (gstep cf (grun cf s h) (clk, .periodic)).log.get clk.period = some e ∧
      e.numSthInit = howMany S .STH_INIT ∧ e.numRevInit = howMany S .REV_INIT ∧
      e.numSthFull = howMany S .STH_INIT ∧ e.numRevFull = howMany S .REV_INIT ∧
      (e.numSthFrag : Int) = cf.crypto.threshold * howMany S .STH_INIT ∧
      (e.numRevFrag : Int) = cf.crypto.threshold * howMany S .REV_INIT ∧
      e.numAccInit = 0 ∧ e.numAccFrag = 0 ∧ e.numAccFull = 0 ∧
      Count (fun k => ∃ o, HeldAs s.storage k o .CON_INIT) e.numConInit ∧
      Count (fun x => s.blacklist.has x = true) e.numBlacklist := by
  have hd := roundDone J B hc hS hr hs h hh hord hcr hdel hsig
  have hnon : NonEmpty (grun cf s h) := by
    obtain ⟨o, ho⟩ := List.exists_mem_of_ne_nil S hne
    exact .inl ⟨_, _, _, heldAs_iff.2 (hd.held o ho)⟩
  obtain ⟨e, he, hrep, _⟩ := (C32_log_entry clk (grun cf s h)).1 hnon
  have hzero : ∀ t, (∀ k, ¬ ∃ o, HeldAs (grun cf s h).storage k o t) → Count (fun k => ∃ o, HeldAs (grun cf s h).storage k o t) 0 :=
    fun t ht => ⟨[], List.nodup_nil, fun k => by simpa using ht k, rfl⟩
  refine ⟨e, ?_, ?_⟩
  · have : gstep cf (grun cf s h) (clk, .periodic) = periodicTask clk (grun cf s h) := by unfold gstep; rw [hcr]; rfl
    rw [this]
    exact he
  · refine ⟨C32_counts_determined _ _ _ hrep.sthInit (hd.countInit hS rfl), C32_counts_determined _ _ _ hrep.revInit (hd.countInit hS rfl),
      C32_counts_determined _ _ _ hrep.sthFull (hd.countFull hS (.inl rfl)), C32_counts_determined _ _ _ hrep.revFull (hd.countFull hS (.inr rfl)),
      hd.countFrag hS (.inl rfl) hrep.sthFrag, hd.countFrag hS (.inr rfl) hrep.revFrag, ?_, ?_, ?_, ?_, ?_⟩
    · refine C32_counts_determined _ _ _ hrep.accInit (hzero _ ?_)
      rintro k ⟨o, hk⟩
      obtain ⟨h1, h2, _⟩ := hd.inv.inits _ k o rfl (heldAs_iff.1 hk)
      rcases hS.type o h1 with h | h <;> rw [h] at h2 <;> cases h2
    · obtain ⟨ks, h1, h2, h3⟩ := hrep.accFrag
      cases ks with
      | nil => exact h3
      | cons p t =>
        obtain ⟨_, o, b1, b2, _⟩ := hd.inv.frags _ _ _ (fragsAt_iff.1 ((h2 p.1 p.2).1 (by simp)))
        rcases hS.type o b1 with h | h <;> rw [h] at b2 <;> cases b2
    · refine C32_counts_determined _ _ _ hrep.accFull (hzero _ ?_)
      rintro k ⟨o, hk⟩
      obtain ⟨o', h1, h2, _⟩ := hd.inv.fulls _ k o rfl (heldAs_iff.1 hk)
      rcases hS.type o' h1 with h | h <;> rw [h] at h2 <;> cases h2
    · refine count_congr (fun k => ?_) hrep.conInit
      simp only [heldAs_iff, hd.inv.con]
    · rw [← hd.inv.bl]; exact hrep.blacklist

end

/-- L1's STH and C1's revocation update. -/
def Ref.period5 : List GossipObj := [Ref.sth, Ref.rev]

/-- Two statements and a fragment of G2 on each arrive, one before its statement; both timers run. -/
def Ref.quietPeriod : List (Clock × GOp) :=
  [(Ref.clk, .recv 10 (Ref.frag (go!"G2"))), (Ref.clk, .recv 10 Ref.sth), (Ref.clk, .recv 10 Ref.rev), (Ref.clk, .recv 10 Ref.sth),
   (Ref.clk, .recv 10 (Ref.revFrag (go!"G2"))), (Ref.clk, .fire 0), (Ref.clk, .fire 0), (Ref.clk, .recv 10 (Ref.revFrag (go!"G3")))]

theorem Ref.period5_faultless (cf : GConf Ref.lib) (h : cf.crypto = Ref.gconf.crypto) : Faultless cf Ref.period5 where
  type := by intro o ho; simp only [Ref.period5, List.mem_cons, List.not_mem_nil, or_false] at ho; rcases ho with rfl | rfl <;> decide
  valid := by
    rw [h]
    intro o ho; simp only [Ref.period5, List.mem_cons, List.not_mem_nil, or_false] at ho; rcases ho with rfl | rfl <;> decide +kernel
  signer := by intro o ho; simp only [Ref.period5, List.mem_cons, List.not_mem_nil, or_false] at ho; rcases ho with rfl | rfl <;> decide
  entity := by intro o ho; simp only [Ref.period5, List.mem_cons, List.not_mem_nil, or_false] at ho; rcases ho with rfl | rfl <;> decide
  one := by
    intro o ho o' ho'
    simp only [Ref.period5, List.mem_cons, List.not_mem_nil, or_false] at ho ho'
    rcases ho with rfl | rfl <;> rcases ho' with rfl | rfl <;> decide +kernel
  nodup := by decide +kernel

theorem Ref.part_sth (cf : GConf Ref.lib) (h : cf.crypto = Ref.gconf.crypto) :
    PartOf cf Ref.blsPub Ref.sth (Ref.frag (go!"G2")) := by
  unfold PartOf; rw [h]
  exact ⟨rfl, rfl, rfl, Ref.conf (go!"G2"), ⟨rfl, rfl⟩, by unfold Safe; decide, by decide +kernel⟩

theorem Ref.part_rev (cf : GConf Ref.lib) (h : cf.crypto = Ref.gconf.crypto) {x : Str} (hx : x = go!"G2" ∨ x = go!"G3") :
    PartOf cf Ref.blsPub Ref.rev (Ref.revFrag x) := by
  unfold PartOf; rw [h]
  rcases hx with rfl | rfl
  · exact ⟨rfl, rfl, rfl, Ref.conf (go!"G2"), ⟨rfl, rfl⟩, by unfold Safe; decide, by decide +kernel⟩
  · exact ⟨rfl, rfl, rfl, Ref.conf (go!"G3"), ⟨rfl, rfl⟩, by unfold Safe; decide, by decide +kernel⟩

theorem Ref.period5_start : PeriodStart Ref.period5 GState.init where
  held := by intro t k o h; rw [heldAs_iff] at h; simp [GState.init] at h
  frags := by intro t k l h; rw [fragsAt_iff] at h; simp [GState.init] at h
  saved := fun _ => rfl
  timers := rfl
  allowed := by intro o _; rfl

theorem PartOf.carries {L : Lib} {cf : GConf L} {pub : L.BlsSec → L.BlsPub} {o d : GossipObj} (h : PartOf cf pub o d)
    (e : d.payload = o.payload) : CarriesPart cf pub o d := by
  refine ⟨?_, by rw [e], .inl e⟩
  have : { d with payload := o.payload } = d := by rw [← e]
  rw [this]; exact h

theorem Ref.carries_sth (cf : GConf Ref.lib) (h : cf.crypto = Ref.gconf.crypto) :
    CarriesPart cf Ref.blsPub Ref.sth (Ref.frag (go!"G2")) := (Ref.part_sth cf h).carries rfl

theorem Ref.carries_rev (cf : GConf Ref.lib) (h : cf.crypto = Ref.gconf.crypto) {x : Str} (hx : x = go!"G2" ∨ x = go!"G3") :
    CarriesPart cf Ref.blsPub Ref.rev (Ref.revFrag x) := (Ref.part_rev cf h hx).carries (by rcases hx with rfl | rfl <;> rfl)

/-- The log of this period: one statement, one FULL object and two fragments for each entity. -/
example : ∃ e, (gstep Ref.gconf (grun Ref.gconf GState.init Ref.quietPeriod) (Ref.clk, .periodic)).log.get Ref.clk.period = some e ∧
    e.numSthInit = 1 ∧ e.numRevInit = 1 ∧ e.numSthFull = 1 ∧ e.numRevFull = 1 ∧ (e.numSthFrag : Int) = 2 ∧ (e.numRevFrag : Int) = 2 := by
  obtain ⟨e, h0, h1, h2, h3, h4, h5, h6, _⟩ := C154_faultless_period_partial Ref.jsonLaws Ref.blsLaws
    (cf := Ref.gconf) (S := Ref.period5) ⟨rfl, by decide, ⟨⟨rfl, rfl⟩, by unfold Safe; decide⟩⟩
    (Ref.period5_faultless Ref.gconf rfl) (by decide) GState.init (GReach.init _) Ref.period5_start Ref.quietPeriod
    (by
      intro e he
      simp only [Ref.quietPeriod, List.mem_cons, List.not_mem_nil, or_false] at he
      rcases he with rfl | rfl | rfl | rfl | rfl | rfl | rfl | rfl
      · exact .inr ⟨Ref.sth, by simp [Ref.period5], Ref.carries_sth _ rfl⟩
      · exact .inl (by simp [Ref.period5])
      · exact .inl (by simp [Ref.period5])
      · exact .inl (by simp [Ref.period5])
      · exact .inr ⟨Ref.rev, by simp [Ref.period5], Ref.carries_rev _ rfl (.inl rfl)⟩
      · trivial
      · trivial
      · exact .inr ⟨Ref.rev, by simp [Ref.period5], Ref.carries_rev _ rfl (.inr rfl)⟩)
    (by intro h; cases h)
    (by decide +kernel)
    (by
      intro o ho
      simp only [Ref.period5, List.mem_cons, List.not_mem_nil, or_false] at ho
      rcases ho with rfl | rfl <;> exact ⟨Ref.clk, 10, by simp [Ref.quietPeriod]⟩)
    (by
      intro o ho
      refine ⟨[Ref.gconf.crypto, Ref.conf (go!"G2")], by decide, by decide, ?_⟩
      intro a ha
      simp only [List.mem_cons, List.not_mem_nil, or_false] at ha
      simp only [Ref.period5, List.mem_cons, List.not_mem_nil, or_false] at ho
      rcases ha with rfl | rfl
      · refine ⟨⟨rfl, rfl⟩, by unfold Safe; decide, .inr ⟨rfl, ?_⟩⟩
        have : (grun Ref.gconf GState.init Ref.quietPeriod).timers = [] := by decide +kernel
        rw [this]; simp
      · refine ⟨⟨rfl, rfl⟩, by unfold Safe; decide, .inl ?_⟩
        rcases ho with rfl | rfl
        · exact ⟨Ref.clk, 10, Ref.frag (go!"G2"), by simp [Ref.quietPeriod], Ref.carries_sth _ rfl, by decide +kernel⟩
        · exact ⟨Ref.clk, 10, Ref.revFrag (go!"G2"), by simp [Ref.quietPeriod], Ref.carries_rev _ rfl (.inl rfl), by decide +kernel⟩)
    Ref.clk
  exact ⟨e, h0, h1, h2, h3, h4, h5, h6⟩

/-- A gossiper with the optimisation settings of gossiper/Init.go:75-76. -/
def Ref.defaultConf : GConf Ref.lib := { Ref.gconf with optMode := true, optThreshold := 10 }

/-- A revocation update is received, and then the stripped fragments on it of two gossipers. -/
def Ref.strippedPeriod : List (Clock × GOp) :=
  [(Ref.clk, .recv 2000 Ref.rev), (Ref.clk, .recv 60 (removePayload (Ref.revFrag (go!"G2")))), (Ref.clk, .fire 0),
   (Ref.clk, .recv 60 (removePayload (Ref.revFrag (go!"G3"))))]

/-- With the default optimisation settings. -/
example : ∃ e, (gstep Ref.defaultConf (grun Ref.defaultConf GState.init Ref.strippedPeriod) (Ref.clk, .periodic)).log.get
      Ref.clk.period = some e ∧
    e.numSthInit = 0 ∧ e.numRevInit = 1 ∧ e.numSthFull = 0 ∧ e.numRevFull = 1 ∧ (e.numSthFrag : Int) = 0 ∧ (e.numRevFrag : Int) = 2 := by
  have hcar : ∀ {x : Str}, x = go!"G2" ∨ x = go!"G3" →
      CarriesPart Ref.defaultConf Ref.blsPub Ref.rev (removePayload (Ref.revFrag x)) := by
    intro x hx
    refine ⟨Ref.part_rev Ref.defaultConf rfl hx, by rcases hx with rfl | rfl <;> rfl, .inr ⟨rfl, rfl⟩⟩
  have hS : Faultless Ref.defaultConf [Ref.rev] := by
    have h := Ref.period5_faultless Ref.defaultConf rfl
    have hm : ∀ o ∈ [Ref.rev], o ∈ Ref.period5 := by intro o ho; simp at ho; simp [ho, Ref.period5]
    exact ⟨fun o ho => h.type o (hm o ho), fun o ho => h.valid o (hm o ho), fun o ho => h.signer o (hm o ho),
      fun o ho => h.entity o (hm o ho), fun o ho o' ho' => h.one o (hm o ho) o' (hm o' ho'), by simp⟩
  have hst : PeriodStart [Ref.rev] GState.init :=
    { Ref.period5_start with allowed := fun o _ => rfl }
  obtain ⟨e, h0, h1, h2, h3, h4, h5, h6, _⟩ := C154_faultless_period_partial Ref.jsonLaws Ref.blsLaws
    (cf := Ref.defaultConf) (S := [Ref.rev]) ⟨rfl, by decide, ⟨⟨rfl, rfl⟩, by unfold Safe; decide⟩⟩
    hS (by decide) GState.init (GReach.init _) hst Ref.strippedPeriod
    (by
      intro e he
      simp only [Ref.strippedPeriod, List.mem_cons, List.not_mem_nil, or_false] at he
      rcases he with rfl | rfl | rfl | rfl
      · exact .inl (by simp)
      · exact .inr ⟨Ref.rev, by simp, hcar (.inl rfl)⟩
      · trivial
      · exact .inr ⟨Ref.rev, by simp, hcar (.inr rfl)⟩)
    (by
      intro _ a b clk n d h ht
      have hent : d.payload.p0 = Ref.rev.payload.p0 := by
        have hm : (clk, GOp.recv n d) ∈ Ref.strippedPeriod := by rw [h]; simp
        simp only [Ref.strippedPeriod, List.mem_cons, List.not_mem_nil, or_false, Prod.mk.injEq, GOp.recv.injEq, reduceCtorEq, and_false,
          false_or] at hm
        rcases hm with ⟨_, _, rfl⟩ | ⟨_, _, rfl⟩ | ⟨_, _, rfl⟩ <;> rfl
      refine ⟨Ref.clk, 2000, Ref.rev, ?_, by simp, rfl, hent.symm, by decide⟩
      cases a with
      | nil =>
        simp only [Ref.strippedPeriod, List.nil_append, List.cons.injEq, Prod.mk.injEq, GOp.recv.injEq] at h
        rw [← h.1.2.2] at ht; cases ht
      | cons x a =>
        simp only [Ref.strippedPeriod, List.cons_append, List.cons.injEq] at h
        rw [← h.1]; simp)
    (by decide +kernel)
    (by intro o ho; simp at ho; subst ho; exact ⟨Ref.clk, 2000, by simp [Ref.strippedPeriod]⟩)
    (by
      intro o ho
      simp at ho; subst ho
      refine ⟨[Ref.conf (go!"G2"), Ref.conf (go!"G3")], by decide, by decide, ?_⟩
      intro a ha
      simp only [List.mem_cons, List.not_mem_nil, or_false] at ha
      rcases ha with rfl | rfl
      · exact ⟨⟨rfl, rfl⟩, by unfold Safe; decide,
          .inl ⟨Ref.clk, 60, _, by simp [Ref.strippedPeriod], hcar (.inl rfl), by decide +kernel⟩⟩
      · exact ⟨⟨rfl, rfl⟩, by unfold Safe; decide, .inl ⟨Ref.clk, 60, removePayload (Ref.revFrag (go!"G3")),
          by simp [Ref.strippedPeriod], hcar (.inr rfl), by decide +kernel⟩⟩)
    Ref.clk
  exact ⟨e, h0, h1, h2, h3, h4, h5, h6⟩

/-- Two fragments arrive before the revocation update they are on. -/
def Ref.overtaken : List (Clock × GOp) :=
  [(Ref.clk, .recv 60 (Ref.revFrag (go!"G2"))), (Ref.clk, .recv 60 (Ref.revFrag (go!"G3"))), (Ref.clk, .recv 2000 Ref.rev),
   (Ref.clk, .fire 0)]

/-- C154 fails with the default optimisation settings: in a period without faults in which a gossiper received C1's revocation
update, and the fragments of two gossipers on it before it (threshold 2), the entry it logs counts the update and no FULL object. -/
theorem C154_violated_by_default_optimisation :
    (∀ e ∈ Ref.overtaken, FaultlessOp Ref.defaultConf Ref.blsPub [Ref.rev] e.2) ∧
    (∃ clk n, (clk, .recv n Ref.rev) ∈ Ref.overtaken) ∧
    (∀ a ∈ [Ref.conf (go!"G2"), Ref.conf (go!"G3")], RegisteredSigner Ref.defaultConf.crypto Ref.blsPub a ∧ Safe a.selfID ∧
      Contributed Ref.defaultConf Ref.blsPub GState.init Ref.overtaken Ref.rev a) ∧
    (grun Ref.defaultConf GState.init Ref.overtaken).crashed = false ∧ Ref.defaultConf.crypto.threshold = 2 ∧
    ∃ e, (gstep Ref.defaultConf (grun Ref.defaultConf GState.init Ref.overtaken) (Ref.clk, .periodic)).log.get Ref.clk.period = some e ∧
      e.numRevInit = 1 ∧ e.numRevFull = 0 := by
  refine ⟨?_, ⟨Ref.clk, 2000, by simp [Ref.overtaken]⟩, ?_, by decide +kernel, rfl, ?_⟩
  · intro e he
    simp only [Ref.overtaken, List.mem_cons, List.not_mem_nil, or_false] at he
    rcases he with rfl | rfl | rfl | rfl
    · exact .inr ⟨Ref.rev, by simp, Ref.carries_rev Ref.defaultConf rfl (.inl rfl)⟩
    · exact .inr ⟨Ref.rev, by simp, Ref.carries_rev Ref.defaultConf rfl (.inr rfl)⟩
    · exact .inl (by simp)
    · trivial
  · intro a ha
    simp only [List.mem_cons, List.not_mem_nil, or_false] at ha
    rcases ha with rfl | rfl
    · exact ⟨⟨rfl, rfl⟩, by unfold Safe; decide, .inl ⟨Ref.clk, 60, Ref.revFrag (go!"G2"), by simp [Ref.overtaken], Ref.carries_rev Ref.defaultConf rfl (.inl rfl), by decide +kernel⟩⟩
    · exact ⟨⟨rfl, rfl⟩, by unfold Safe; decide, .inl ⟨Ref.clk, 60, Ref.revFrag (go!"G3"), by simp [Ref.overtaken], Ref.carries_rev Ref.defaultConf rfl (.inr rfl), by decide +kernel⟩⟩
  · have h : ((gstep Ref.defaultConf (grun Ref.defaultConf GState.init Ref.overtaken) (Ref.clk, .periodic)).log.get Ref.clk.period).map
        (fun e => (e.numRevInit, e.numRevFull)) = some (1, 0) := by decide +kernel
    cases hg : (gstep Ref.defaultConf (grun Ref.defaultConf GState.init Ref.overtaken) (Ref.clk, .periodic)).log.get Ref.clk.period with
    | none => rw [hg] at h; cases h
    | some e =>
      rw [hg] at h
      simp only [Option.map_some, Option.some.injEq, Prod.mk.injEq] at h
      exact ⟨e, rfl, h.1, h.2⟩

/-- C154 fails for concurrent requests: at the end of the history of `C91_violated_by_concurrent_duplicates`, in which one STH was
posted and nothing else came from outside, G1 logs the STH and no FULL object. -/
theorem C154_violated_by_concurrent_duplicates (k0 k1 k2 : Clock) :
    let c := (nrun Ref.mesh3 Net.init Ref.lostHist).node (go!"G1")
    let c' := crun (Ref.mesh3.conf (go!"G1")) c [(k0, .periodic), (k1, .run c.threads.length), (k2, .run c.threads.length)]
    ∃ e, c'.g.log.get k1.period = some e ∧ e.numSthInit ≠ 0 ∧ e.numSthFull = 0 := by
  obtain ⟨_, _, _, h4, h5⟩ := C91_violated_by_concurrent_duplicates
  obtain ⟨_, hup, _, _, hheld, _⟩ := h4 (go!"G1") (by decide)
  obtain ⟨⟨e, he, hrep⟩, _⟩ := C32_periodic_logs_then_wipes (Ref.mesh3.conf (go!"G1"))
    ((nrun Ref.mesh3 Net.init Ref.lostHist).node (go!"G1")) hup (.inl ⟨_, _, _, hheld⟩) k0 k1 k2
  refine ⟨e, he, ?_, ?_⟩
  · intro h0
    obtain ⟨ks, _, h2, h3⟩ := hrep.sthInit
    rw [h0] at h3
    have := (h2 _).2 ⟨_, hheld⟩
    rw [List.length_eq_zero_iff.1 h3.symm] at this
    cases this
  · obtain ⟨ks, _, h2, h3⟩ := hrep.sthFull
    cases ks with
    | nil => exact h3
    | cons k t =>
      obtain ⟨o, ho⟩ := (h2 k).1 (by simp)
      exact absurd ho (h5 _ (by simp) k o)

end CTng
