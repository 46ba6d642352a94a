import Verif.Model.GossiperConc
/- Basic lemmas about the gossiper model. -/
set_option autoImplicit false

namespace CTng

def GType.isFrag : GType → Bool
  | .STH_FRAG | .REV_FRAG | .ACC_FRAG => true
  | _ => false

def GType.isFull : GType → Bool
  | .STH_FULL | .REV_FULL | .ACC_FULL => true
  | _ => false

def GType.isInit : GType → Bool
  | .STH_INIT | .REV_INIT | .ACC_INIT => true
  | _ => false

def GType.isOther : GType → Bool
  | .other _ => true
  | _ => false

/-- Types stored in maps of single objects. -/
def GType.isObj : GType → Bool
  | .STH_INIT | .REV_INIT | .ACC_INIT | .CON_INIT | .STH_FULL | .REV_FULL | .ACC_FULL => true
  | _ => false

namespace Storage

theorem objs_putObj_same (s : Storage) (t : GType) (k : GossipID) (o : GossipObj) (h : t.isObj = true) :
    (s.putObj t k o).objs t = (s.objs t).set k o := by
  cases t <;> simp_all [GType.isObj, putObj, objs]

theorem objs_putObj_ne (s : Storage) {t t' : GType} (k : GossipID) (o : GossipObj) (h : t' ≠ t) :
    (s.putObj t k o).objs t' = s.objs t' := by
  cases t <;> cases t' <;> simp_all [putObj, objs]

@[simp] theorem frags_putObj (s : Storage) (t t' : GType) (k : GossipID) (o : GossipObj) :
    (s.putObj t k o).frags t' = s.frags t' := by
  cases t <;> cases t' <;> simp [putObj, frags]

@[simp] theorem fragList_putObj (s : Storage) (t t' : GType) (k k' : GossipID) (o : GossipObj) :
    (s.putObj t k o).fragList t' k' = s.fragList t' k' := by simp [fragList]

@[simp] theorem revPayload_putObj (s : Storage) (t : GType) (k : GossipID) (o : GossipObj) :
    (s.putObj t k o).revPayload = s.revPayload := by cases t <;> rfl

@[simp] theorem objs_appendFrag (s : Storage) (t t' : GType) (k : GossipID) (o : GossipObj) :
    (s.appendFrag t k o).objs t' = s.objs t' := by
  cases t <;> cases t' <;> simp [appendFrag, objs]

@[simp] theorem revPayload_appendFrag (s : Storage) (t : GType) (k : GossipID) (o : GossipObj) :
    (s.appendFrag t k o).revPayload = s.revPayload := by cases t <;> rfl

theorem fragList_appendFrag_same (s : Storage) (t : GType) (k : GossipID) (o : GossipObj) (h : t.isFrag = true) :
    (s.appendFrag t k o).fragList t k = s.fragList t k ++ [o] := by
  cases t <;> simp_all [GType.isFrag, appendFrag, fragList, frags]

theorem fragList_appendFrag_ne (s : Storage) {t t' : GType} {k k' : GossipID} (o : GossipObj)
    (h : t' ≠ t ∨ k' ≠ k) : (s.appendFrag t k o).fragList t' k' = s.fragList t' k' := by
  rcases h with h | h
  · cases t <;> cases t' <;> simp_all [appendFrag, fragList, frags]
  · cases t <;> cases t' <;> simp [appendFrag, fragList, frags, h]

@[simp] theorem fragList_other (s : Storage) (t : GType) (k : GossipID) (h : t.isFrag = false) :
    s.fragList t k = [] := by
  cases t <;> simp_all [GType.isFrag, fragList, frags]

@[simp] theorem objs_other (s : Storage) (t : GType) (h : t.isObj = false) : s.objs t = .empty := by
  cases t <;> simp_all [GType.isObj, objs]

@[simp] theorem objs_init (t : GType) : Storage.init.objs t = .empty := by cases t <;> rfl
@[simp] theorem frags_init (t : GType) : Storage.init.frags t = .empty := by cases t <;> rfl
@[simp] theorem fragList_init (t : GType) (k : GossipID) : Storage.init.fragList t k = [] := by
  simp [fragList]

end Storage

section
variable {L : Lib} (cf : GConf L) (clk : Clock)

/-! ### The recursion of Handle_Gossip_object -/

theorem dispatch_leaf {g : GossipObj} (h : g.type.isInit = false) (h' : g.type.isFrag = false)
    (r r' : Handler) (s : GState) : dispatch cf clk r s g = dispatch cf clk r' s g := by
  unfold dispatch
  cases ht : g.type <;> simp_all [GType.isInit, GType.isFrag]

theorem generateFULL_type {cf : GConf L} {clk : Clock} {gs : List GossipObj} {t : GType} {o : GossipObj}
    (h : generateFULL cf clk gs t = some o) : o.type = t := by
  unfold generateFULL at h
  split at h
  · cases h
  · cases h
  · split at h
    · cases h; rfl
    · cases h

theorem getTargetType_isFull {g : GossipObj} (h : g.type.isFrag = true) : g.getTargetType.isFull = true := by
  cases ht : g.type <;> simp_all [GType.isFrag, GossipObj.getTargetType, GType.isFull]

theorem generateFRAG_type {cf : GConf L} {g f : GossipObj} (h : generateFRAG cf g = some f) :
    f.type = match g.type with
      | .STH_INIT => .STH_FRAG
      | .REV_INIT => .REV_FRAG
      | .ACC_INIT => .ACC_FRAG
      | t => t := by
  unfold generateFRAG at h
  split at h
  · cases h
  · cases h; rfl

theorem isFull_leaf {t : GType} (h : t.isFull = true) : t.isInit = false ∧ t.isFrag = false := by
  cases t <;> simp_all [GType.isFull, GType.isInit, GType.isFrag]

theorem dispatch_frag {g : GossipObj} (h : g.type.isFrag = true) (r r' : Handler)
    (hr : ∀ s o, o.type.isFull = true → r s o = r' s o) (s : GState) :
    dispatch cf clk r s g = dispatch cf clk r' s g := by
  have key : handleFrag cf clk r s g = handleFrag cf clk r' s g := by
    unfold handleFrag
    split
    · rfl
    · split
      rename_i s1 before _
      congr 1
      split
      · split
        · rfl
        · rename_i o ho
          exact hr _ _ (by rw [generateFULL_type ho]; exact getTargetType_isFull h)
      · rfl
  unfold dispatch
  cases ht : g.type <;> simp_all [GType.isFrag]

theorem dispatch_init {g : GossipObj} (h : g.type.isInit = true) (r r' : Handler)
    (hr : ∀ s o, o.type = .CON_INIT → r s o = r' s o)
    (hf : ∀ s o, o.type.isFrag = true → r s o = r' s o) (s : GState) :
    dispatch cf clk r s g = dispatch cf clk r' s g := by
  have k1 : ∀ t t', handleInit cf clk t t' r s g = handleInit cf clk t t' r' s g := by
    intro t t'
    unfold handleInit
    split
    · rfl
    · split
      · rfl
      · split
        · exact hr _ _ rfl
        · rfl
  have k2 : g.type = .ACC_INIT → handleAcc cf clk r s g = handleAcc cf clk r' s g := by
    intro hg
    unfold handleAcc
    split
    · rfl
    · split
      · rfl
      · split
        · rfl
        · rfl
        · split
          · rfl
          · split
            · rfl
            · rename_i s2 f hs
              unfold signStatement at hs
              cases hgen : generateFRAG cf g with
              | none => simp [hgen] at hs
              | some f' =>
                simp [hgen] at hs
                obtain ⟨_, rfl⟩ := hs
                exact hf _ _ (by rw [generateFRAG_type hgen, hg]; rfl)
  unfold dispatch
  cases ht : g.type <;> simp_all [GType.isInit]

theorem handleN_leaf {g : GossipObj} (h : g.type.isInit = false) (h' : g.type.isFrag = false) (n m : Nat)
    (s : GState) : handleN cf clk (n + 1) s g = handleN cf clk (m + 1) s g :=
  dispatch_leaf cf clk h h' _ _ s

theorem handleN_frag {g : GossipObj} (h : g.type.isFrag = true) (n m : Nat)
    (s : GState) : handleN cf clk (n + 2) s g = handleN cf clk (m + 2) s g :=
  dispatch_frag cf clk h _ _ (fun s _ ho => handleN_leaf cf clk (isFull_leaf ho).1 (isFull_leaf ho).2 n m s) s

theorem handleN_init {g : GossipObj} (h : g.type.isInit = true) (n m : Nat)
    (s : GState) : handleN cf clk (n + 3) s g = handleN cf clk (m + 3) s g :=
  dispatch_init cf clk h _ _
    (fun s o ho => handleN_leaf cf clk (by simp [ho, GType.isInit]) (by simp [ho, GType.isFrag]) (n + 1) (m + 1) s)
    (fun s _ ho => handleN_frag cf clk ho n m s) s

theorem handleN_stable (n : Nat) : handleN cf clk (n + 3) = handle cf clk := by
  funext s g
  unfold handle
  by_cases h1 : g.type.isInit = true
  · exact handleN_init cf clk h1 n 0 s
  · by_cases h2 : g.type.isFrag = true
    · exact handleN_frag cf clk h2 (n + 1) 1 s
    · exact handleN_leaf cf clk (by simpa using h1) (by simpa using h2) (n + 2) 2 s

/-- The modelled handler satisfies the recursive equation of `Handle_Gossip_object`. -/
theorem handle_eq : handle cf clk = dispatch cf clk (handle cf clk) := by
  have h : handleN cf clk (1 + 3) = dispatch cf clk (handleN cf clk 3) := rfl
  rw [handleN_stable] at h
  exact h

/-! ### The handler per type -/

theorem handle_apply (s : GState) (g : GossipObj) : handle cf clk s g = dispatch cf clk (handle cf clk) s g :=
  congrFun (congrFun (handle_eq cf clk) s) g

theorem handle_full {g : GossipObj} (h : g.type.isFull = true) (s : GState) :
    handle cf clk s g = if dupCheck s g then (s, false) else if inBlacklist s g.payload.p0 then (s, false)
      else handleFull cf clk s g := by
  refine (handle_apply cf clk s g).trans ?_
  unfold dispatch
  cases ht : g.type <;> simp_all [GType.isFull]

theorem handle_frag {g : GossipObj} (h : g.type.isFrag = true) (s : GState) :
    handle cf clk s g = if dupCheck s g then (s, false) else if inBlacklist s g.payload.p0 then (s, false)
      else handleFrag cf clk (handle cf clk) s g := by
  refine (handle_apply cf clk s g).trans ?_
  unfold dispatch
  cases ht : g.type <;> simp_all [GType.isFrag]

theorem handle_con {g : GossipObj} (h : g.type = .CON_INIT) (s : GState) :
    handle cf clk s g = if dupCheck s g then (s, false) else if inBlacklist s g.payload.p0 then (s, false)
      else handleCon cf clk s g := by
  refine (handle_apply cf clk s g).trans ?_
  unfold dispatch
  simp only [h]

theorem handle_other {g : GossipObj} (h : g.type.isOther = true) (s : GState) :
    handle cf clk s g = (s, false) := by
  refine (handle_apply cf clk s g).trans ?_
  unfold dispatch
  cases ht : g.type <;> simp_all [GType.isOther]

theorem handle_sthrev {g : GossipObj} (h : g.type = .STH_INIT ∨ g.type = .REV_INIT) (s : GState) :
    handle cf clk s g = if dupCheck s g then (s, false) else if inBlacklist s g.payload.p0 then (s, false)
      else handleInit cf clk (fullOfInit g.type) (fragOfInit g.type) (handle cf clk) s g := by
  refine (handle_apply cf clk s g).trans ?_
  unfold dispatch
  rcases h with h | h <;> rw [h] <;> simp only [fullOfInit, fragOfInit]

theorem handle_acc {g : GossipObj} (h : g.type = .ACC_INIT) (s : GState) :
    handle cf clk s g = if dupCheck s g then (s, false) else if inBlacklist s g.payload.p0 then (s, false)
      else handleAcc cf clk (handle cf clk) s g := by
  refine (handle_apply cf clk s g).trans ?_
  unfold dispatch
  rw [h]

end
end CTng
