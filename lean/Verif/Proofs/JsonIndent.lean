import Verif.Model.JsonIndent
import Verif.Proofs.Json
/- Indented JSON reads back as the same value. -/
set_option autoImplicit false

namespace CTng
namespace Json

/-- White space only. -/
def Blank (s : Str) : Prop := ∀ c ∈ s, isSpace c = true

theorem skipWs_blank {s : Str} (h : Blank s) (r : Str) : skipWs (s ++ r) = skipWs r := by
  induction s with
  | nil => rfl
  | cons c t ih =>
    simp only [List.cons_append, skipWs, h c (by simp), if_true]
    exact ih fun x hx => h x (by simp [hx])

theorem value_skip (n : Nat) {s : Str} (h : Blank s) (r : Str) : value n (s ++ r) = value n r := by
  cases n with
  | zero => rw [value, value]
  | succ n => rw [value, value, skipWs_blank h]

theorem elems_skip (n : Nat) {s : Str} (h : Blank s) (r : Str) : elems n (s ++ r) = elems n r := by
  cases n with
  | zero => rw [elems, elems]
  | succ n => rw [elems, elems, value_skip n h]

theorem members_skip (n : Nat) {s : Str} (h : Blank s) (r : Str) : members n (s ++ r) = members n r := by
  cases n with
  | zero => rw [members, members]
  | succ n => rw [members, members, skipWs_blank h]

theorem delim_blank {s : Str} (h : Blank s) (r : Str) (hr : Delim r) : Delim (s ++ r) := by
  cases s with
  | nil => exact hr
  | cons c t => intro c' t' he; cases he; exact .inl (h c (by simp))

theorem indent_head (w : Nat → Str) (d : Nat) (j : Json) (h : NumOk j) :
    ∃ c t, indent w d j = c :: t ∧ isSpace c = false ∧ c ≠ 93 ∧ c ≠ 125 := by
  cases j with
  | null => exact ⟨_, _, rfl, rfl, by decide, by decide⟩
  | bool b => cases b <;> exact ⟨_, _, rfl, rfl, by decide, by decide⟩
  | num tok =>
    have := render_head (.num tok) h
    simpa [render, indent] using this
  | str s => exact ⟨34, _, rfl, rfl, by decide, by decide⟩
  | arr l => exact ⟨91, _, rfl, rfl, by decide, by decide⟩
  | obj l => exact ⟨123, _, rfl, rfl, by decide, by decide⟩

mutual
theorem value_indent (w : Nat → Str) (hw : ∀ d, Blank (w d)) (j : Json) (d n : Nat) (r : Str) (hn : size j ≤ n) (hj : NumOk j)
    (hr : Delim r) : value n (indent w d j ++ r) = some (clean j, r) := by
  match j, hn, hj with
  | .null, hn, hj => have := value_render .null n r hn hj hr; simpa only [render, indent] using this
  | .bool true, hn, hj => have := value_render (.bool true) n r hn hj hr; simpa only [render, indent] using this
  | .bool false, hn, hj => have := value_render (.bool false) n r hn hj hr; simpa only [render, indent] using this
  | .num tok, hn, hj => have := value_render (.num tok) n r hn hj hr; simpa only [render, indent] using this
  | .str s, hn, hj => have := value_render (.str s) n r hn hj hr; simpa only [render, indent] using this
  | .arr [], hn, hj =>
    have := value_render (.arr []) n r hn hj hr
    simpa [render, renderElems, indent] using this
  | .arr (x :: l), hn, hj =>
    simp only [size] at hn
    obtain ⟨n, rfl⟩ : ∃ n', n = n' + 1 := ⟨n - 1, by omega⟩
    have hj' : NumOkElems (x :: l) := by simpa only [NumOk] using hj
    have ih := elems_indent w hw (x :: l) (d + 1) n (w d) r (hw d) (by omega) hj' (by simp)
    rw [value]
    simp only [indent, clean, List.cons_append, List.append_assoc, List.nil_append, List.isEmpty_cons, if_neg Bool.false_ne_true]
    rw [skipWs_nonspace 91 _ rfl]
    obtain ⟨c, t, hc, hs, h93, _⟩ := indent_head w (d + 1) x (by simp only [NumOkElems] at hj'; exact hj'.1)
    obtain ⟨t', hre⟩ : ∃ t', indentElems w (d + 1) (x :: l) ++ (w d ++ 93 :: r) = c :: t' := by
      cases l <;> simp [indentElems, hc]
    rw [hre] at ih ⊢
    simp only [skipWs_blank (hw (d + 1)), skipWs_nonspace c _ hs]
    simp only [if_neg (show (91 : UInt8) ≠ 34 by decide), if_neg (show (91 : UInt8) ≠ 123 by decide), if_true]
    split
    · rename_i h
      simp only [List.cons.injEq] at h
      exact absurd h.1 h93
    · rw [ih]; rfl
  | .obj [], hn, hj =>
    have := value_render (.obj []) n r hn hj hr
    simpa [render, renderMembers, indent] using this
  | .obj (x :: l), hn, hj =>
    simp only [size] at hn
    obtain ⟨n, rfl⟩ : ∃ n', n = n' + 1 := ⟨n - 1, by omega⟩
    have hj' : NumOkMembers (x :: l) := by simpa only [NumOk] using hj
    have ih := members_indent w hw (x :: l) (d + 1) n (w d) r (hw d) (by omega) hj' (by simp)
    rw [value]
    simp only [indent, clean, List.cons_append, List.append_assoc, List.nil_append, List.isEmpty_cons, if_neg Bool.false_ne_true]
    rw [skipWs_nonspace 123 _ rfl]
    obtain ⟨c, t, hc, hs, h125⟩ : ∃ c t, indentMembers w (d + 1) (x :: l) ++ (w d ++ 125 :: r) = c :: t ∧ isSpace c = false ∧ c ≠ 125 := by
      obtain ⟨k, v⟩ := x
      refine ⟨34, (indentMembers w (d + 1) ((k, v) :: l) ++ (w d ++ 125 :: r)).tail, ?_, rfl, by decide⟩
      cases l <;> simp [indentMembers, indentMember, quote]
    rw [hc] at ih ⊢
    simp only [skipWs_blank (hw (d + 1)), skipWs_nonspace c _ hs]
    simp only [if_neg (show (123 : UInt8) ≠ 34 by decide), if_true]
    split
    · rename_i h
      simp only [List.cons.injEq] at h
      exact absurd h.1 h125
    · rw [ih]; rfl

theorem elems_indent (w : Nat → Str) (hw : ∀ d, Blank (w d)) (l : List Json) (d n : Nat) (b r : Str) (hb : Blank b)
    (hn : sizeElems l ≤ n) (hj : NumOkElems l) (hl : l ≠ []) :
    elems n (indentElems w d l ++ (b ++ 93 :: r)) = some (cleanElems l, r) := by
  match l, hn, hj, hl with
  | x :: t, hn, hj, _ =>
    simp only [sizeElems] at hn
    simp only [NumOkElems] at hj
    obtain ⟨n, rfl⟩ : ∃ n', n = n' + 1 := ⟨n - 1, by omega⟩
    rw [elems]
    cases t with
    | nil =>
      have h1 := value_indent w hw x d n (b ++ 93 :: r) (by omega) hj.1 (delim_blank hb _ (delim_cons _ _ (by decide)))
      simp only [indentElems, List.append_assoc, List.nil_append, h1]
      simp [skipWs_blank hb, skipWs, isSpace, cleanElems]
    | cons y t =>
      have h1 := value_indent w hw x d n (44 :: (w d ++ (indentElems w d (y :: t) ++ (b ++ 93 :: r)))) (by omega) hj.1
        (delim_cons _ _ (by decide))
      have h2 := elems_indent w hw (y :: t) d n b r hb (by omega) hj.2 (by simp)
      have e : indentElems w d (x :: y :: t) ++ (b ++ 93 :: r) =
          indent w d x ++ 44 :: (w d ++ (indentElems w d (y :: t) ++ (b ++ 93 :: r))) := by
        rw [indentElems]; simp
      rw [e, h1]
      simp only [skipWs_nonspace 44 _ rfl, if_true, elems_skip n (hw d), h2, Option.map_some, cleanElems]

theorem members_indent (w : Nat → Str) (hw : ∀ d, Blank (w d)) (l : List (Str × Json)) (d n : Nat) (b r : Str) (hb : Blank b)
    (hn : sizeMembers l ≤ n) (hj : NumOkMembers l) (hl : l ≠ []) :
    members n (indentMembers w d l ++ (b ++ 125 :: r)) = some (cleanMembers l, r) := by
  match l, hn, hj, hl with
  | (k, v) :: t, hn, hj, _ =>
    simp only [sizeMembers, sizeMember] at hn
    simp only [NumOkMembers, NumOkMember] at hj
    obtain ⟨n, rfl⟩ : ∃ n', n = n' + 1 := ⟨n - 1, by omega⟩
    have hq : ∀ u, quote k ++ u = 34 :: (quoteN k.length k ++ 34 :: u) := fun u => by simp [quote]
    have sp : Blank [32] := by intro c hc; simp at hc; subst hc; rfl
    rw [members]
    cases t with
    | nil =>
      have h1 := value_indent w hw v d n (b ++ 125 :: r) (by omega) hj.1 (delim_blank hb _ (delim_cons _ _ (by decide)))
      have e : indentMembers w d [(k, v)] ++ (b ++ 125 :: r) = quote k ++ 58 :: ([32] ++ (indent w d v ++ (b ++ 125 :: r))) := by
        rw [indentMembers, indentMember]; simp
      rw [e, hq]
      simp only [skipWs_nonspace 34 _ rfl, if_true, quote_read, skipWs_nonspace 58 _ rfl, value_skip n sp, h1]
      simp [skipWs_blank hb, skipWs, isSpace, cleanMembers, cleanMember]
    | cons y t =>
      have h1 := value_indent w hw v d n (44 :: (w d ++ (indentMembers w d (y :: t) ++ (b ++ 125 :: r)))) (by omega) hj.1
        (delim_cons _ _ (by decide))
      have h2 := members_indent w hw (y :: t) d n b r hb (by omega) hj.2 (by simp)
      have e : indentMembers w d ((k, v) :: y :: t) ++ (b ++ 125 :: r) =
          quote k ++ 58 :: ([32] ++ (indent w d v ++ 44 :: (w d ++ (indentMembers w d (y :: t) ++ (b ++ 125 :: r))))) := by
        rw [indentMembers, indentMember]; simp
      rw [e, hq]
      simp only [skipWs_nonspace 34 _ rfl, if_true, quote_read, skipWs_nonspace 58 _ rfl, value_skip n sp, h1,
        skipWs_nonspace 44 _ rfl, members_skip n (hw d), h2, Option.map_some, cleanMembers, cleanMember]
end

mutual
theorem size_le_indent (w : Nat → Str) (d : Nat) (j : Json) : (render j).length ≤ (indent w d j).length := by
  match j with
  | .null => simp [render, indent]
  | .bool true => simp [render, indent]
  | .bool false => simp [render, indent]
  | .num tok => simp [render, indent]
  | .str s => simp [render, indent]
  | .arr [] => simp [render, renderElems, indent]
  | .arr (x :: l) =>
    have := sizeElems_le_indent w (d + 1) (x :: l)
    simp [render, indent] at this ⊢; omega
  | .obj [] => simp [render, renderMembers, indent]
  | .obj (x :: l) =>
    have := sizeMembers_le_indent w (d + 1) (x :: l)
    simp [render, indent] at this ⊢; omega

theorem sizeElems_le_indent (w : Nat → Str) (d : Nat) (l : List Json) : (renderElems l).length ≤ (indentElems w d l).length := by
  match l with
  | [] => simp [renderElems]
  | [x] =>
    have h1 := size_le_indent w d x
    simp [renderElems, indentElems]; omega
  | x :: y :: t =>
    have h1 := size_le_indent w d x
    have h2 := sizeElems_le_indent w d (y :: t)
    rw [renderElems, indentElems]
    simp only [List.length_append, List.length_cons]
    omega

theorem sizeMembers_le_indent (w : Nat → Str) (d : Nat) (l : List (Str × Json)) :
    (renderMembers l).length ≤ (indentMembers w d l).length := by
  match l with
  | [] => simp [renderMembers]
  | [(k, v)] =>
    have h1 := size_le_indent w d v
    simp [renderMembers, renderMember, indentMembers, indentMember]; omega
  | (k, v) :: y :: t =>
    have h1 := size_le_indent w d v
    have h2 := sizeMembers_le_indent w d (y :: t)
    rw [renderMembers, renderMember, indentMembers, indentMember]
    simp only [List.length_append, List.length_cons]
    omega
end

/-- json.Unmarshal of json.MarshalIndent. -/
theorem parse_marshalIndent (pre ind : Str) (hp : Blank pre) (hi : Blank ind) (j : Json) (h : NumOk j) :
    parse (marshalIndent pre ind j) = some (clean j) := by
  have hw : ∀ d, Blank (10 :: (pre ++ (List.replicate d ind).flatten)) := by
    intro d c hc
    simp only [List.mem_cons, List.mem_append, List.mem_flatten] at hc
    rcases hc with rfl | hc | ⟨l, hl, hc⟩
    · rfl
    · exact hp c hc
    · rw [(List.mem_replicate.1 hl).2] at hc; exact hi c hc
  have := value_indent _ hw j 0 (2 * (marshalIndent pre ind j).length + 2) []
    (by have := size_le j h; have := size_le_indent (fun d => 10 :: (pre ++ (List.replicate d ind).flatten)) 0 j
        unfold marshalIndent; omega) h delim_nil
  rw [List.append_nil] at this
  unfold parse
  rw [show value (2 * (marshalIndent pre ind j).length + 2) (marshalIndent pre ind j) = some (clean j, []) from this]
  simp [skipWs]

end Json
end CTng
