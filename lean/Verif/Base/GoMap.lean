import Verif.Base.Str
/-
Go maps as finite association lists with unique keys. A missing key reads as `none`; call sites that use Go's
"zero value of a missing key" apply `.getD`. The order of `entries` stands for Go's unspecified iteration order and no
theorem depends on it.
-/
set_option autoImplicit false

namespace CTng

structure GoMap (K V : Type) where
  entries : List (K × V)
  nodup : (entries.map Prod.fst).Nodup

namespace GoMap
variable {K V : Type}

/-- `make(map[K]V)` -/
def empty : GoMap K V := ⟨[], by simp⟩

instance : Inhabited (GoMap K V) := ⟨empty⟩

instance [DecidableEq K] [DecidableEq V] : DecidableEq (GoMap K V) := fun a b =>
  if h : a.entries = b.entries then isTrue (by cases a; cases b; cases h; rfl)
  else isFalse (fun e => h (by rw [e]))

variable [DecidableEq K]

def lookupL (l : List (K × V)) (k : K) : Option V :=
  match l with
  | [] => none
  | (k', v) :: t => if k' = k then some v else lookupL t k

/-- `v, ok := m[k]` -/
def get (m : GoMap K V) (k : K) : Option V := lookupL m.entries k

/-- `delete(m, k)` -/
def erase (m : GoMap K V) (k : K) : GoMap K V :=
  ⟨m.entries.filter (fun p => p.1 ≠ k), by
    have := m.nodup
    exact (List.Sublist.map Prod.fst List.filter_sublist).nodup this⟩

/-- `m[k] = v` -/
def set (m : GoMap K V) (k : K) (v : V) : GoMap K V :=
  ⟨(k, v) :: (m.erase k).entries, by
    simp only [List.map_cons, List.nodup_cons]
    refine ⟨?_, (m.erase k).nodup⟩
    simp [erase]⟩

/-- `len(m)` -/
def len (m : GoMap K V) : Nat := m.entries.length

/-- Keep the entries satisfying `p` (a `for k, v := range m { if !p {delete(m, k)} }` loop). -/
def filterKV (m : GoMap K V) (p : K → V → Bool) : GoMap K V :=
  ⟨m.entries.filter (fun e => p e.1 e.2), by
    have := m.nodup
    exact (List.Sublist.map Prod.fst List.filter_sublist).nodup this⟩

/-- The values in iteration order. -/
def values (m : GoMap K V) : List V := m.entries.map Prod.snd

/-- The keys in iteration order. -/
def keys (m : GoMap K V) : List K := m.entries.map Prod.fst

/-- `_, ok := m[k]` -/
def has (m : GoMap K V) (k : K) : Bool := (m.get k).isSome

@[simp] theorem get_empty (k : K) : (empty : GoMap K V).get k = none := rfl

theorem lookupL_filter_ne (l : List (K × V)) (k k' : K) (h : k' ≠ k) :
    lookupL (l.filter (fun p => p.1 ≠ k)) k' = lookupL l k' := by
  induction l with
  | nil => rfl
  | cons p t ih =>
    obtain ⟨a, b⟩ := p
    by_cases ha : a = k
    · subst ha
      have : ¬ a = k' := fun e => h e.symm
      simp only [ne_eq, not_true_eq_false, decide_false, Bool.false_eq_true, not_false_eq_true,
        List.filter_cons_of_neg, lookupL, this, if_false]
      simpa using ih
    · simp only [ne_eq, ha, not_false_eq_true, decide_true, List.filter_cons_of_pos, lookupL]
      split
      · rfl
      · simpa using ih

theorem lookupL_filter_self (l : List (K × V)) (k : K) :
    lookupL (l.filter (fun p => p.1 ≠ k)) k = none := by
  induction l with
  | nil => rfl
  | cons p t ih =>
    obtain ⟨a, b⟩ := p
    by_cases ha : a = k
    · subst ha; simpa using ih
    · simp only [ne_eq, ha, not_false_eq_true, decide_true, List.filter_cons_of_pos, lookupL, if_false]
      simpa using ih

@[simp] theorem get_set_self (m : GoMap K V) (k : K) (v : V) : (m.set k v).get k = some v := by
  simp [get, set, lookupL]

@[simp] theorem get_set_ne (m : GoMap K V) {k k' : K} (v : V) (h : k' ≠ k) :
    (m.set k v).get k' = m.get k' := by
  have h' : ¬ k = k' := fun e => h e.symm
  simp only [get, set, lookupL, h', if_false, erase]
  exact lookupL_filter_ne _ _ _ h

theorem get_set (m : GoMap K V) (k k' : K) (v : V) :
    (m.set k v).get k' = if k' = k then some v else m.get k' := by
  split
  · subst_vars; simp
  · simp [*]

@[simp] theorem get_erase_self (m : GoMap K V) (k : K) : (m.erase k).get k = none :=
  lookupL_filter_self _ _

theorem set_set_same (m : GoMap K V) (k : K) (v : V) : (m.set k v).set k v = m.set k v := by
  simp [set, erase]

@[simp] theorem get_erase_ne (m : GoMap K V) {k k' : K} (h : k' ≠ k) :
    (m.erase k).get k' = m.get k' := lookupL_filter_ne _ _ _ h

theorem lookupL_mem {l : List (K × V)} {k : K} {v : V} (h : lookupL l k = some v) : (k, v) ∈ l := by
  induction l with
  | nil => simp [lookupL] at h
  | cons p t ih =>
    obtain ⟨a, b⟩ := p
    simp only [lookupL] at h
    split at h
    · subst_vars; simp at h; simp [h]
    · exact List.mem_cons_of_mem _ (ih h)

theorem mem_lookupL {l : List (K × V)} (hn : (l.map Prod.fst).Nodup) {k : K} {v : V} (h : (k, v) ∈ l) :
    lookupL l k = some v := by
  induction l with
  | nil => simp at h
  | cons p t ih =>
    obtain ⟨a, b⟩ := p
    simp only [List.map_cons, List.nodup_cons] at hn
    simp only [lookupL]
    rcases List.mem_cons.1 h with h | h
    · cases h; simp
    · split
      · rename_i e
        exact absurd (List.mem_map.2 ⟨(k, v), h, rfl⟩) (e ▸ hn.1)
      · exact ih hn.2 h

/-- Reading a key and membership in the entry list agree. -/
theorem get_eq_some_iff (m : GoMap K V) (k : K) (v : V) : m.get k = some v ↔ (k, v) ∈ m.entries :=
  ⟨lookupL_mem, mem_lookupL m.nodup⟩

theorem get_filterKV (m : GoMap K V) (p : K → V → Bool) (k : K) :
    (m.filterKV p).get k = (m.get k).filter (p k) := by
  cases h : m.get k with
  | none =>
    cases h' : (m.filterKV p).get k with
    | none => rfl
    | some v =>
      have := (get_eq_some_iff _ _ _).1 h'
      simp only [filterKV, List.mem_filter] at this
      rw [(get_eq_some_iff _ _ _).2 this.1] at h; cases h
  | some v =>
    have hv := (get_eq_some_iff _ _ _).1 h
    cases hp : p k v with
    | true =>
      have : (k, v) ∈ (m.filterKV p).entries := by simp [filterKV, hv, hp]
      rw [(get_eq_some_iff _ _ _).2 this]; simp [Option.filter, hp]
    | false =>
      cases h' : (m.filterKV p).get k with
      | none => simp [Option.filter, hp]
      | some w =>
        have := (get_eq_some_iff _ _ _).1 h'
        simp only [filterKV, List.mem_filter] at this
        have hw := (get_eq_some_iff _ _ _).2 this.1
        rw [hw] at h; cases h
        simp [hp] at this

theorem has_iff (m : GoMap K V) (k : K) : m.has k = true ↔ ∃ v, m.get k = some v := by
  simp [has, Option.isSome_iff_exists]

@[simp] theorem has_set_self (m : GoMap K V) (k : K) (v : V) : (m.set k v).has k = true := by simp [has]

theorem has_set (m : GoMap K V) (k k' : K) (v : V) :
    (m.set k v).has k' = (decide (k' = k) || m.has k') := by
  by_cases h : k' = k
  · subst h; simp
  · simp [has, h]

@[simp] theorem has_empty (k : K) : (empty : GoMap K V).has k = false := rfl

theorem len_eq_zero_iff (m : GoMap K V) : m.len = 0 ↔ ∀ k, m.get k = none := by
  constructor
  · intro h k
    have : m.entries = [] := List.eq_nil_of_length_eq_zero h
    simp [get, this, lookupL]
  · intro h
    cases he : m.entries with
    | nil => simp [len, he]
    | cons p t =>
      have : (p.1, p.2) ∈ m.entries := by simp [he]
      rw [← get_eq_some_iff, h] at this; cases this

theorem filter_ne_of_not_mem {l : List (K × V)} {k : K} (h : k ∉ l.map Prod.fst) :
    l.filter (fun p => p.1 ≠ k) = l := by
  rw [List.filter_eq_self]
  intro a ha
  simp only [ne_eq, decide_not, Bool.not_eq_eq_eq_not, Bool.not_true, decide_eq_false_iff_not]
  intro e
  exact h (List.mem_map.2 ⟨a, ha, e⟩)

theorem filter_ne_length {l : List (K × V)} {k : K} (hn : (l.map Prod.fst).Nodup) (h : k ∈ l.map Prod.fst) :
    (l.filter (fun p => p.1 ≠ k)).length + 1 = l.length := by
  induction l with
  | nil => simp at h
  | cons p t ih =>
    simp only [List.map_cons, List.nodup_cons] at hn
    by_cases e : p.1 = k
    · subst e
      have := filter_ne_of_not_mem hn.1
      simp only [ne_eq, decide_not] at this
      simp [this]
    · have h' : k ∈ t.map Prod.fst := by
        simp only [List.map_cons, List.mem_cons] at h
        rcases h with h | h
        · exact absurd h.symm e
        · exact h
      have := ih hn.2 h'
      simp only [ne_eq, e, not_false_eq_true, decide_true, List.filter_cons_of_pos, List.length_cons]
      simp only [ne_eq] at this
      omega

theorem mem_keys_iff (m : GoMap K V) (k : K) : k ∈ m.entries.map Prod.fst ↔ ∃ v, m.get k = some v := by
  constructor
  · intro h
    obtain ⟨⟨a, b⟩, h1, h2⟩ := List.mem_map.1 h
    cases h2
    exact ⟨b, (get_eq_some_iff _ _ _).2 h1⟩
  · rintro ⟨v, h⟩
    exact List.mem_map.2 ⟨(k, v), (get_eq_some_iff _ _ _).1 h, rfl⟩

/-- `len` after `m[k] = v`. -/
theorem len_set (m : GoMap K V) (k : K) (v : V) :
    (m.set k v).len = if m.has k then m.len else m.len + 1 := by
  by_cases h : k ∈ m.entries.map Prod.fst
  · have h1 : m.has k = true := (has_iff _ _).2 ((mem_keys_iff _ _).1 h)
    have := filter_ne_length m.nodup h
    simp only [len, set, erase, List.length_cons, h1, if_true]
    omega
  · have h1 : m.has k = false := by
      cases hh : m.has k with
      | false => rfl
      | true => exact absurd ((mem_keys_iff _ _).2 ((has_iff _ _).1 hh)) h
    have := filter_ne_of_not_mem h
    simp only [len, set, erase, List.length_cons, h1, this, Bool.false_eq_true, if_false]

theorem mem_values_iff (m : GoMap K V) (v : V) : v ∈ m.values ↔ ∃ k, m.get k = some v := by
  simp only [values, List.mem_map]
  constructor
  · rintro ⟨⟨a, b⟩, h, e⟩
    cases e
    exact ⟨a, (get_eq_some_iff _ _ _).2 h⟩
  · rintro ⟨k, h⟩
    exact ⟨(k, v), (get_eq_some_iff _ _ _).1 h, rfl⟩

end GoMap
end CTng
