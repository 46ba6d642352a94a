import Verif.Model.Definition
/- What is printed about objects and identifiers: C136. -/
set_option autoImplicit false

namespace CTng

/-- C136: the name printed for a type (`TypeString`) tells the ten types apart, and "UNKNOWN" stands for every other string
and for none of the ten. -/
theorem C136_names (a b : GType) : (typeString a = typeString b → a = b ∨ ∃ s s', a = .other s ∧ b = .other s') ∧
    (typeString a = go!"UNKNOWN" ↔ ∃ s, a = .other s) := by
  constructor
  · intro h
    cases a <;> cases b <;> first
      | exact Or.inl rfl
      | exact Or.inr ⟨_, _, rfl, rfl⟩
      | exact absurd h (by decide)
      | (simp only [typeString] at h; exact absurd h (by decide))
  · constructor
    · intro h
      cases a <;> first
        | exact ⟨_, rfl⟩
        | exact absurd h (by decide)
    · rintro ⟨s, rfl⟩
      rfl

/-- One of the ten types. -/
def GType.Known (t : GType) : Prop := ∀ s, t ≠ .other s

theorem known_length {t : GType} (h : t.Known) : t.toStr.length = 25 := by
  cases t <;> first
    | rfl
    | exact absurd rfl (h _)

theorem known_inj {a b : GType} (ha : a.Known) (hb : b.Known) (h : a.toStr = b.toStr) : a = b := by
  cases a <;> cases b <;> first
    | rfl
    | exact absurd rfl (ha _)
    | exact absurd rfl (hb _)
    | exact absurd h (by decide)

/-- C136, a part: identifiers of the ten types whose periods have the same length (those of `GetCurrentPeriod` have two digits)
print differently (`Gossip_ID.String`) unless they are equal. -/
theorem C136_identifiers_partial (i j : GossipID) (hi : i.type.Known) (hj : j.type.Known)
    (hl : i.period.length = j.period.length) (h : i.toStr = j.toStr) : i = j := by
  unfold GossipID.toStr at h
  rw [List.append_assoc, List.append_assoc] at h
  obtain ⟨h1, h2⟩ := List.append_inj h hl
  obtain ⟨h3, h4⟩ := List.append_inj h2 (by rw [known_length hi, known_length hj])
  have := known_inj hi hj h3
  cases i; cases j
  simp only at h1 h4 this
  subst h1; subst h4; subst this
  rfl

/-- C136, violated: the three parts are joined without a separator. For every type and all strings `a`, `b`, `c`, two
different identifiers print the same. -/
theorem C136_violated_identifiers (t : GType) (a b c : Str) (h : t.toStr ≠ []) :
    ∃ i j : GossipID, i ≠ j ∧ i.type = t ∧ j.type = t ∧ i.toStr = j.toStr ∧
      i.period = a ∧ j.entity = c := by
  refine ⟨⟨a, t, b ++ t.toStr ++ c⟩, ⟨a ++ t.toStr ++ b, t, c⟩, ?_, rfl, rfl, ?_, rfl, rfl⟩
  · intro e
    have e1 : a = a ++ t.toStr ++ b := congrArg GossipID.period e
    have := congrArg List.length e1
    simp only [List.length_append] at this
    have h' : t.toStr.length ≠ 0 := fun hz => h (List.eq_nil_of_length_eq_zero hz)
    omega
  · simp only [GossipID.toStr, List.append_assoc]

/-- Two identifiers of minute 05 and different types. -/
example : (⟨go!"05", .STH_INIT, go!"L1"⟩ : GossipID).toStr ≠ (⟨go!"05", .STH_FULL, go!"L1"⟩ : GossipID).toStr := by
  intro h
  have e := C136_identifiers_partial ⟨go!"05", .STH_INIT, go!"L1"⟩ ⟨go!"05", .STH_FULL, go!"L1"⟩
    (fun s hs => by cases hs) (fun s hs => by cases hs) rfl h
  cases e

/-- Both sides of the violation for STHs, `a` = "05", `b` = "L", `c` = "1". -/
example : GType.STH_INIT.toStr ≠ [] := by decide

example : typeString .REV_FULL ≠ typeString .REV_FRAG := fun h => by
  rcases (C136_names _ _).1 h with h | ⟨_, _, h, _⟩ <;> cases h

end CTng
