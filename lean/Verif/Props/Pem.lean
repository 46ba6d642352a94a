import Verif.Model.Pem
import Verif.Proofs.Wire
import Verif.Props.CertPool
/- C102 (with the PEM decoder), C107, C108: PEM files. -/
set_option autoImplicit false

namespace CTng
namespace Pem
open CertPool (PemBlock)
open Wire (b64enc b64dec)

/-! ### Lemmas -/

theorem isPrefixOf_length {a b : Str} (h : a.isPrefixOf b = true) : a.length ≤ b.length :=
  (List.isPrefixOf_iff_prefix.1 h).length_le

theorem cut_length {pat s a b : Str} (h : cut pat s = some (a, b)) : a.length + pat.length + b.length = s.length := by
  induction s generalizing a b with
  | nil =>
    unfold cut at h
    split at h
    · rename_i e; cases h; simp [e]
    · cases h
  | cons c t ih =>
    unfold cut at h
    split at h
    · rename_i hp
      cases h
      have := isPrefixOf_length hp
      simp only [List.length_drop, List.length_nil]
      omega
    · cases hc : cut pat t with
      | none => rw [hc] at h; cases h
      | some p =>
        rw [hc] at h
        cases h
        have := ih (a := p.1) (b := p.2) hc
        simp only [List.length_cons]; omega

theorem getLine_rest (s : Str) : (getLine s).2.length ≤ s.length - 1 := by
  unfold getLine
  cases h : cut [10] s with
  | none => simp
  | some p =>
    have := cut_length (a := p.1) (b := p.2) h
    simp only [List.length_cons, List.length_nil] at this
    show p.2.length ≤ _
    omega

theorem headers_rest {n : Nat} {s : Str} {hs : List (Str × Str)} {r : List (Str × Str) × Str} (h : headers n s hs = some r) :
    r.2.length ≤ s.length := by
  induction n generalizing s hs with
  | zero => cases h
  | succ n ih =>
    unfold headers at h
    split at h
    · cases h
    · split at h
      · cases h; exact Nat.le_refl _
      · have := ih h; have := getLine_rest s; omega

theorem body_rest {ty s : Str} {hs : List (Str × Str)} {r : PemBlock × Str} (h : body ty hs s = some r) :
    r.2.length ≤ s.length := by
  unfold body at h
  cases he : findEnd hs s with
  | none => rw [he] at h; cases h
  | some p =>
    rw [he] at h
    simp only at h
    have hp : p.2.length ≤ s.length := by
      unfold findEnd at he
      split at he
      · cases he; simp
      · have := cut_length (a := p.1) (b := p.2) he; omega
    split at h
    · cases h
    · split at h
      · cases h
      · split at h
        · cases h
        · split at h
          · cases h
          · cases h
            have := getLine_rest (32 :: p.2)
            simp only [List.length_cons] at this
            simp only; omega

/-- `pem.Decode` makes progress. -/
theorem decode_rest {s : Str} {r : PemBlock × Str} (h : decode s = some r) : r.2.length < s.length := by
  unfold decode at h
  generalize s.length + 1 = n at h
  induction n generalizing s with
  | zero => cases h
  | succ n ih =>
    unfold decodeN at h
    split at h
    · cases h
    · rename_i a s1 hb
      have hs1 : s1.length < s.length := by
        split at hb
        · rename_i hp
          have := isPrefixOf_length hp
          simp only [Option.some.injEq, Prod.mk.injEq] at hb
          rw [← hb.2, List.length_drop]
          have : begin.length = 11 := rfl
          omega
        · have := cut_length hb
          have h2 : (10 :: begin).length = 12 := rfl
          omega
      have h1 := getLine_rest s1
      simp only at h
      split at h
      · have := ih h; omega
      · split at h
        · cases h
        · rename_i hs s2 hh
          have h2 := headers_rest hh
          simp only at h2
          split at h
          · have := ih h; omega
          · rename_i r' hbd
            cases h
            have := body_rest hbd; omega

theorem cut_none_of {c : UInt8} {pat : Str} {s : Str} (h : c ∉ s) : cut (c :: pat) s = none := by
  induction s with
  | nil => rfl
  | cons x t ih =>
    rw [List.mem_cons, not_or] at h
    unfold cut
    rw [ih h.2]
    simp [List.isPrefixOf, h.1]

/-- The first occurrence of a pattern whose second byte does not occur before it. -/
theorem cut_at {c d : UInt8} {pat u v : Str} (hcd : c ≠ d) (hu : d ∉ u) : cut (c :: d :: pat) (u ++ c :: d :: pat ++ v) = some (u, v) := by
  induction u with
  | nil =>
    have hp : (c :: d :: pat).isPrefixOf (c :: (d :: pat ++ v)) = true := List.isPrefixOf_iff_prefix.2 ⟨v, rfl⟩
    show cut (c :: d :: pat) (c :: (d :: pat ++ v)) = _
    unfold cut
    rw [if_pos hp]
    simp
  | cons x t ih =>
    rw [List.mem_cons, not_or] at hu
    have hp : (c :: d :: pat).isPrefixOf (x :: (t ++ c :: d :: pat ++ v)) = false := by
      cases t with
      | nil => simp [List.isPrefixOf, Ne.symm hcd]
      | cons y t =>
        have : d ≠ y := fun e => hu.2 (by simp [e])
        simp [List.isPrefixOf, this]
    show cut (c :: d :: pat) (x :: (t ++ c :: d :: pat ++ v)) = _
    unfold cut
    rw [hp, ih hu.2]; rfl

theorem cut_one {c : UInt8} {u v : Str} (hu : c ∉ u) : cut [c] (u ++ c :: v) = some (u, v) := by
  induction u with
  | nil => show cut [c] (c :: v) = _; unfold cut; simp [List.isPrefixOf]
  | cons x t ih =>
    rw [List.mem_cons, not_or] at hu
    show cut [c] (x :: (t ++ c :: v)) = _
    unfold cut
    rw [ih hu.2]
    simp [List.isPrefixOf, hu.1]

theorem trimRight_last {p : UInt8 → Bool} {u : Str} {c : UInt8} (h : p c = false) : trimRight p (u ++ [c]) = u ++ [c] := by
  simp [trimRight, h]

/-- A line that ends with a byte other than space, tab and carriage return. -/
theorem getLine_line {u v : Str} {c : UInt8} (hu : (10 : UInt8) ∉ u ++ [c]) (h1 : c ≠ 13) (h2 : c ≠ 32) (h3 : c ≠ 9) :
    getLine (u ++ [c] ++ 10 :: v) = (u ++ [c], v) := by
  unfold getLine
  rw [cut_one hu]
  simp only
  rw [if_neg (by simp [h1]), trimRight_last (by simp [h2, h3])]

theorem b64enc_chars' (s : Str) : ∀ c ∈ b64enc s, c ≠ 10 ∧ c ≠ 13 ∧ c ≠ 45 ∧ c ≠ 58 ∧ c ≠ 32 ∧ c ≠ 9 := by
  have h61 : (61 : UInt8) ≠ 10 ∧ (61 : UInt8) ≠ 13 ∧ (61 : UInt8) ≠ 45 ∧ (61 : UInt8) ≠ 58 ∧ (61 : UInt8) ≠ 32 ∧ (61 : UInt8) ≠ 9 := by
    decide
  have key : ∀ n, n < 64 → Wire.b64digit n ≠ 10 ∧ Wire.b64digit n ≠ 13 ∧ Wire.b64digit n ≠ 45 ∧ Wire.b64digit n ≠ 58 ∧
      Wire.b64digit n ≠ 32 ∧ Wire.b64digit n ≠ 9 := by
    intro n hn
    have key : ∀ i : Fin 64, Wire.b64digit i.val ≠ 10 ∧ Wire.b64digit i.val ≠ 13 ∧ Wire.b64digit i.val ≠ 45 ∧
      Wire.b64digit i.val ≠ 58 ∧ Wire.b64digit i.val ≠ 32 ∧ Wire.b64digit i.val ≠ 9 := by decide +kernel
    exact key ⟨n, hn⟩
  fun_induction b64enc s with
  | case1 => intro c hc; cases hc
  | case2 a =>
    have ha := a.toNat_lt
    intro c hc
    simp only [List.mem_cons, List.not_mem_nil, or_false] at hc
    rcases hc with rfl | rfl | rfl | rfl
    · exact key _ (by omega)
    · exact key _ (by omega)
    · exact h61
    · exact h61
  | case3 a b =>
    have ha := a.toNat_lt
    have hb := b.toNat_lt
    intro c hc
    simp only [List.mem_cons, List.not_mem_nil, or_false] at hc
    rcases hc with rfl | rfl | rfl | rfl
    · exact key _ (by omega)
    · exact key _ (by omega)
    · exact key _ (by omega)
    · exact h61
  | case4 a b c t ih =>
    have ha := a.toNat_lt
    have hb := b.toNat_lt
    have hc' := c.toNat_lt
    intro x hx
    simp only [List.mem_cons] at hx
    rcases hx with rfl | rfl | rfl | rfl | hx
    · exact key _ (by omega)
    · exact key _ (by omega)
    · exact key _ (by omega)
    · exact key _ (by omega)
    · exact ih x hx

/-- The text between the two lines: the bytes of `s` and line ends, ending with a line end, unless `s` is empty. -/
theorem lines_spec (n : Nat) : ∀ s : Str, s.length ≤ n → (s = [] ∧ lines n s = []) ∨
    ∃ u, lines n s = u ++ [10] ∧ (u.filter fun c => c ≠ 10) = s.filter (fun c => c ≠ 10) ∧ (∀ c ∈ u, c ∈ s ∨ c = 10) ∧
      ∃ c t, s = c :: t ∧ ∃ t', u = c :: t' := by
  induction n with
  | zero => intro s hs; left; exact ⟨List.length_eq_zero_iff.1 (by omega), rfl⟩
  | succ n ih =>
    intro s hs
    cases s with
    | nil => left; exact ⟨rfl, rfl⟩
    | cons c t =>
      right
      have hd : ((c :: t).drop 64).length ≤ n := by simp only [List.length_drop, List.length_cons] at hs ⊢; omega
      unfold lines
      rw [if_neg (by simp)]
      rcases ih _ hd with ⟨h1, h2⟩ | ⟨u, h1, h2, h3, _⟩
      · refine ⟨(c :: t).take 64, by rw [h2], ?_, ?_, c, t, rfl, t.take 63, rfl⟩
        · rw [List.take_of_length_le (by have := congrArg List.length h1; simp only [List.length_drop, List.length_nil] at this; omega)]
        · exact fun x hx => .inl (List.mem_of_mem_take hx)
      · refine ⟨(c :: t).take 64 ++ 10 :: u, by rw [h1]; simp, ?_, ?_, c, t, rfl, t.take 63 ++ 10 :: u, rfl⟩
        · have : (10 :: u).filter (fun c => decide (c ≠ 10)) = ((c :: t).drop 64).filter fun c => decide (c ≠ 10) := by
            rw [← h2]; simp
          rw [List.filter_append, this, ← List.filter_append, List.take_append_drop]
        · intro x hx
          rcases List.mem_append.1 hx with hx | hx
          · exact .inl (List.mem_of_mem_take hx)
          · rcases List.mem_cons.1 hx with hx | hx
            · exact .inr hx
            · rcases h3 x hx with h | h
              · exact .inl (List.mem_of_mem_drop h)
              · exact .inr h

/-- A block type without line end and colon. -/
def PlainType (ty : Str) : Prop := (10 : UInt8) ∉ ty ∧ (58 : UInt8) ∉ ty

theorem headers_none {n : Nat} {s : Str} (hs : s ≠ []) (h : (58 : UInt8) ∉ (getLine s).1) : headers (n + 1) s [] = some ([], s) := by
  unfold headers
  rw [if_neg hs, cut_none_of h]

theorem body_ok {ty : Str} (b : Str) {s text v : Str} (hf : findEnd [] s = some (text, ty ++ dashes ++ 10 :: v))
    (h10 : (10 : UInt8) ∉ ty) (hb : b64dec (text.filter fun c => c ≠ 32 ∧ c ≠ 9) = some b) : body ty [] s = some (⟨ty, [], b⟩, v) := by
  unfold body
  rw [hf]
  have h1 : (ty ++ dashes ++ 10 :: v).take (ty.length + dashes.length) = ty ++ dashes := by
    rw [← List.length_append, List.take_left]
  have h2 : (ty ++ dashes ++ 10 :: v).drop (ty.length + dashes.length) = 10 :: v := by
    rw [← List.length_append, List.drop_left]
  have h3 : ¬ (ty ++ dashes ++ 10 :: v).length < ty.length + dashes.length := by simp only [List.length_append]; omega
  have h4 : ty.isPrefixOf (ty ++ dashes) = true := List.isPrefixOf_iff_prefix.2 ⟨_, rfl⟩
  have h5 : dashes.isSuffixOf (ty ++ dashes) = true := List.isSuffixOf_iff_suffix.2 ⟨_, rfl⟩
  have h6 : getLine (10 :: v) = ([], v) := by
    unfold getLine
    have : cut [10] (10 :: v) = some ([], v) := cut_one (u := []) (by simp)
    rw [this]; rfl
  have h7 : (getLine (32 :: (ty ++ dashes ++ 10 :: v))).2 = v := by
    unfold getLine
    have : cut [10] (32 :: (ty ++ dashes ++ 10 :: v)) = some (32 :: (ty ++ dashes), v) := by
      refine cut_one (u := 32 :: (ty ++ dashes)) ?_
      simp [h10, dashes]
    rw [this]
  simp only [h1, h2, h4, h5, h6, h7, hb, if_neg h3]
  simp

/-- `pem.Decode` reads what `pem.Encode` wrote, and goes on after it. -/
theorem decode_encode (ty b rest : Str) (hty : PlainType ty) : decode (encode ty b ++ rest) = some (⟨ty, [], b⟩, rest) := by
  obtain ⟨h10, h58⟩ := hty
  unfold decode
  generalize (encode ty b ++ rest).length = n
  let s2 := lines (b64enc b).length (b64enc b) ++ fin ++ ty ++ dashes ++ 10 :: rest
  have he : encode ty b ++ rest = begin ++ (ty ++ dashes ++ 10 :: s2) := by
    simp [encode, s2, List.append_assoc]
  have hl : getLine (ty ++ dashes ++ 10 :: s2) = (ty ++ dashes, s2) := by
    have := getLine_line (u := ty ++ go!"----") (v := s2) (c := 45) (by simp [h10]) (by decide) (by decide) (by decide)
    simpa [dashes] using this
  have hne : s2 ≠ [] := by simp [s2, dashes]
  have hsuf : dashes.isSuffixOf (ty ++ dashes) = true := List.isSuffixOf_iff_suffix.2 ⟨_, rfl⟩
  have hty : (ty ++ dashes).take ((ty ++ dashes).length - dashes.length) = ty := by
    rw [List.length_append, Nat.add_sub_cancel, List.take_left]
  have hpre : begin.isPrefixOf (begin ++ (ty ++ dashes ++ 10 :: s2)) = true := List.isPrefixOf_iff_prefix.2 ⟨_, rfl⟩
  have hmain : headers (s2.length + 1) s2 [] = some ([], s2) ∧ body ty [] s2 = some (⟨ty, [], b⟩, rest) := by
    rcases lines_spec _ (b64enc b) (Nat.le_refl _) with ⟨h1, h2⟩ | ⟨u, h1, h2, h3, c, t, h4, t', h5⟩
    · have hb : b = [] := by
        have := Wire.b64dec_enc b; rw [h1] at this
        cases this; rfl
      have hs2 : s2 = fin ++ (ty ++ dashes ++ 10 :: rest) := by simp [s2, h2]
      have hln : (getLine s2).1 = fin ++ ty ++ dashes := by
        have := getLine_line (u := fin ++ ty ++ go!"----") (v := rest) (c := 45) (by simp [h10, fin]) (by decide) (by decide) (by decide)
        rw [hs2]
        simpa [dashes] using congrArg Prod.fst this
      refine ⟨headers_none hne ?_, ?_⟩
      · rw [hln]; simp [h58, fin, dashes]
      · refine body_ok b (text := []) ?_ h10 (by rw [hb]; rfl)
        unfold findEnd
        rw [if_pos ⟨rfl, by rw [hs2]; exact List.isPrefixOf_iff_prefix.2 ⟨_, rfl⟩⟩, hs2, List.drop_left]
    · have hs2 : s2 = u ++ (10 :: fin) ++ (ty ++ dashes ++ 10 :: rest) := by simp [s2, h1]
      have hch : ∀ x ∈ u, x ≠ 13 ∧ x ≠ 45 ∧ x ≠ 58 ∧ x ≠ 32 ∧ x ≠ 9 := by
        intro x hx
        rcases h3 x hx with h | h
        · exact (b64enc_chars' b x h).2
        · subst h; decide
      refine ⟨headers_none hne ?_, ?_⟩
      · -- the first line is part of `u`
        have hsub : ∀ x ∈ (getLine s2).1, x ∈ u := by
          intro x hx
          have hcut : ∃ w r, cut [10] s2 = some (w, r) ∧ ∀ y ∈ w, y ∈ u := by
            have hstop : ∀ (l v : Str), ∃ w r, cut [10] (l ++ 10 :: v) = some (w, r) ∧ ∀ y ∈ w, y ∈ l := by
              intro l v
              induction l with
              | nil => exact ⟨[], v, cut_one (u := []) (by simp), by simp⟩
              | cons a l ih =>
                by_cases ha : a = 10
                · subst ha
                  exact ⟨[], l ++ 10 :: v, cut_one (u := []) (by simp), by simp⟩
                · obtain ⟨w, r, e1, e2⟩ := ih
                  refine ⟨a :: w, r, ?_, ?_⟩
                  · show cut [10] (a :: (l ++ 10 :: v)) = _
                    unfold cut
                    rw [e1]
                    simp [List.isPrefixOf, Ne.symm ha]
                  · intro y hy
                    rcases List.mem_cons.1 hy with rfl | hy
                    · simp
                    · exact List.mem_cons_of_mem _ (e2 y hy)
            have := hstop u (fin ++ (ty ++ dashes ++ 10 :: rest))
            rw [hs2]; simpa using this
          obtain ⟨w, r, e1, e2⟩ := hcut
          unfold getLine at hx
          rw [e1] at hx
          simp only at hx
          have htr : ∀ (p : UInt8 → Bool) (l : Str), ∀ y ∈ trimRight p l, y ∈ l := by
            intro p l y hy
            unfold trimRight at hy
            exact List.mem_reverse.1 ((List.dropWhile_sublist _).subset (List.mem_reverse.1 hy))
          have hx1 := htr _ _ x hx
          split at hx1
          · exact e2 x (List.dropLast_subset _ hx1)
          · exact e2 x hx1
        intro hm
        exact (hch _ (hsub _ hm)).2.2.1 rfl
      · refine body_ok b (text := u) ?_ h10 ?_
        · unfold findEnd
          rw [if_neg]
          · rw [hs2]
            exact cut_at (c := 10) (d := 45) (by decide) (fun h => (hch _ h).2.1 rfl)
          · rintro ⟨_, hp⟩
            rw [hs2, h5] at hp
            have hc : c ≠ 45 := (hch c (by rw [h5]; simp)).2.1
            simp [fin, List.isPrefixOf, Ne.symm hc] at hp
        · have hf : (u.filter fun c => decide (c ≠ 32 ∧ c ≠ 9)) = u := by
            rw [List.filter_eq_self]
            intro x hx; simp [(hch x hx).2.2.2]
          rw [hf]
          have hu : (u.filter fun c => decide (c ≠ 10 ∧ c ≠ 13)) = b64enc b := by
            have e : (u.filter fun c => decide (c ≠ 10 ∧ c ≠ 13)) = u.filter fun c => decide (c ≠ 10) := by
              apply List.filter_congr
              intro x hx
              simp [(hch x hx).1]
            rw [e, h2, List.filter_eq_self]
            intro x hx; simp [(b64enc_chars' b x hx).1]
          unfold Wire.b64dec
          rw [hu, Wire.b64groups_enc]
  rw [he]
  unfold decodeN
  rw [if_pos hpre, List.drop_left]
  simp only [hl, hsuf, hty, hmain.1, hmain.2]
  simp

/-! ### A decoded block is a block of the text -/

theorem cut_eq {pat s a b : Str} (h : cut pat s = some (a, b)) : s = a ++ pat ++ b := by
  induction s generalizing a b with
  | nil =>
    unfold cut at h
    split at h
    · rename_i hp; cases h; rw [hp]; rfl
    · cases h
  | cons c t ih =>
    unfold cut at h
    split at h
    · rename_i hp
      cases h
      obtain ⟨u, hu⟩ := List.isPrefixOf_iff_prefix.1 hp
      rw [← hu, List.drop_left]; rfl
    · cases hc : cut pat t with
      | none => rw [hc] at h; cases h
      | some p =>
        rw [hc] at h
        cases h
        rw [ih hc]; rfl

theorem trimRight_eq (p : UInt8 → Bool) (s : Str) : ∃ j, s = trimRight p s ++ j := by
  refine ⟨(s.reverse.takeWhile p).reverse, ?_⟩
  unfold trimRight
  rw [← List.reverse_append, List.takeWhile_append_dropWhile, List.reverse_reverse]

theorem getLine_eq (s : Str) : ∃ j, s = (getLine s).1 ++ j ++ (getLine s).2 := by
  unfold getLine
  split
  · obtain ⟨j, hj⟩ := trimRight_eq (fun c => c = 32 ∨ c = 9) s
    exact ⟨j, by rw [List.append_nil]; exact hj⟩
  · rename_i l rest hc
    obtain ⟨j, hj⟩ := trimRight_eq (fun c => c = 32 ∨ c = 9) (if l.getLast? = some 13 then l.dropLast else l)
    have hl : ∃ k, l = (if l.getLast? = some 13 then l.dropLast else l) ++ k := by
      split
      · rename_i h13
        obtain ⟨u, hu⟩ := List.getLast?_eq_some_iff.1 h13
        exact ⟨[13], by rw [hu, List.dropLast_concat]⟩
      · exact ⟨[], by simp⟩
    obtain ⟨k, hk⟩ := hl
    refine ⟨j ++ k ++ [10], ?_⟩
    have hs := cut_eq hc
    revert hk hj
    generalize (if l.getLast? = some 13 then l.dropLast else l) = m
    intro hj hk
    rw [hs, hk]
    conv => lhs; rw [hj]
    simp only [List.append_assoc]

theorem headers_eq {n : Nat} : ∀ {s : Str} {hs : List (Str × Str)} {r : List (Str × Str) × Str}, headers n s hs = some r →
    ∃ j, s = j ++ r.2 := by
  induction n with
  | zero => intro s hs r h; cases h
  | succ n ih =>
    intro s hs r h
    unfold headers at h
    split at h
    · cases h
    · split at h
      · cases h; exact ⟨[], rfl⟩
      · obtain ⟨j, hj⟩ := ih h
        obtain ⟨k, hk⟩ := getLine_eq s
        refine ⟨(getLine s).1 ++ k ++ j, ?_⟩
        conv => lhs; rw [hk]
        rw [hj]; simp [List.append_assoc]

/-- `text` holds a block of this type with this content: a BEGIN and an END line of the type, and between them, possibly
after headers, the content in base64. -/
def HoldsBlock (text ty bytes : Str) : Prop :=
  ∃ pre hdr b64 sep post, text = pre ++ go!"-----BEGIN " ++ ty ++ go!"-----" ++ hdr ++ b64 ++ sep ++ go!"-----END " ++ ty ++ go!"-----" ++ post ∧
    (sep = [] ∨ sep = [10]) ∧ b64dec (b64.filter fun c => c ≠ 32 ∧ c ≠ 9) = some bytes

theorem findEnd_eq {hs : List (Str × Str)} {s text trailer : Str} (h : findEnd hs s = some (text, trailer)) :
    ∃ sep, s = text ++ sep ++ fin ++ trailer ∧ (sep = [] ∨ sep = [10]) := by
  unfold findEnd at h
  split at h
  · rename_i hc
    cases h
    obtain ⟨u, hu⟩ := List.isPrefixOf_iff_prefix.1 hc.2
    exact ⟨[], by rw [← hu, List.drop_left]; rfl, .inl rfl⟩
  · have := cut_eq h
    exact ⟨[10], by rw [this]; simp [List.append_assoc], .inr rfl⟩

theorem body_eq {ty s : Str} {hs : List (Str × Str)} {r : PemBlock × Str} (h : body ty hs s = some r) :
    r.1.type = ty ∧ ∃ b64 sep post, s = b64 ++ sep ++ fin ++ ty ++ dashes ++ post ∧ (sep = [] ∨ sep = [10]) ∧
      b64dec (b64.filter fun c => c ≠ 32 ∧ c ≠ 9) = some r.1.bytes := by
  unfold body at h
  split at h
  · cases h
  · rename_i text trailer hf
    split at h
    · cases h
    · rename_i hlen
      simp only at h
      split at h
      · cases h
      · rename_i hd
        split at h
        · cases h
        · split at h
          · cases h
          · rename_i b hb
            cases h
            refine ⟨rfl, ?_⟩
            obtain ⟨sep, hs, hsep⟩ := findEnd_eq hf
            refine ⟨text, sep, trailer.drop (ty.length + dashes.length), ?_, hsep, hb⟩
            have h1 : ty.isPrefixOf (trailer.take (ty.length + dashes.length)) = true := by
              cases hx : ty.isPrefixOf (trailer.take (ty.length + dashes.length)) with
              | true => rfl
              | false => exact absurd (.inl hx) hd
            have h2 : dashes.isSuffixOf (trailer.take (ty.length + dashes.length)) = true := by
              cases hx : dashes.isSuffixOf (trailer.take (ty.length + dashes.length)) with
              | true => rfl
              | false => exact absurd (.inr hx) hd
            obtain ⟨u, hu⟩ := List.isPrefixOf_iff_prefix.1 h1
            obtain ⟨v, hv⟩ := List.isSuffixOf_iff_suffix.1 h2
            have hl : (trailer.take (ty.length + dashes.length)).length = ty.length + dashes.length := by
              rw [List.length_take]; omega
            have hv' : v.length = ty.length := by
              have := congrArg List.length hv
              rw [List.length_append, hl] at this; omega
            have huv : ty = v ∧ u = dashes := by
              have : ty ++ u = v ++ dashes := by rw [hu, hv]
              exact List.append_inj this hv'.symm
            have ht : trailer.take (ty.length + dashes.length) = ty ++ dashes := by rw [← hu, huv.2]
            rw [hs]
            conv => lhs; rw [← List.take_append_drop (ty.length + dashes.length) trailer, ht]
            simp [List.append_assoc]

theorem decodeN_eq (n : Nat) : ∀ {s : Str} {r : PemBlock × Str}, decodeN n s = some r → HoldsBlock s r.1.type r.1.bytes := by
  induction n with
  | zero => intro s r h; cases h
  | succ n ih =>
    intro s r h
    unfold decodeN at h
    split at h
    · cases h
    · rename_i s0 s1 hb
      have hs1 : ∃ p, s = p ++ begin ++ s1 := by
        split at hb
        · rename_i hp
          cases hb
          obtain ⟨u, hu⟩ := List.isPrefixOf_iff_prefix.1 hp
          exact ⟨[], by rw [← hu, List.drop_left]; rfl⟩
        · exact ⟨s0 ++ [10], by rw [cut_eq hb]; simp [List.append_assoc]⟩
      obtain ⟨p, hp⟩ := hs1
      obtain ⟨j, hj⟩ := getLine_eq s1
      simp only at h
      split at h
      · obtain ⟨pre, hdr, b64, sep, post, ht, hsep, hb⟩ := ih h
        refine ⟨p ++ begin ++ (getLine s1).1 ++ j ++ pre, hdr, b64, sep, post, ?_, hsep, hb⟩
        rw [hp]
        conv => lhs; rw [hj, ht]
        simp [List.append_assoc]
      · rename_i hd
        have hd' : dashes.isSuffixOf (getLine s1).1 = true := by
          cases hx : dashes.isSuffixOf (getLine s1).1 with
          | true => rfl
          | false => exact absurd hx hd
        obtain ⟨v, hv⟩ := List.isSuffixOf_iff_suffix.1 hd'
        have hty : (getLine s1).1.take ((getLine s1).1.length - dashes.length) = v := by
          rw [← hv, List.length_append, Nat.add_sub_cancel, List.take_left]
        split at h
        · cases h
        · rename_i hs s2 hh
          obtain ⟨k, hk⟩ := headers_eq hh
          simp only at hk
          split at h
          · obtain ⟨pre, hdr, b64, sep, post, ht, hsep, hb⟩ := ih h
            refine ⟨p ++ begin ++ (getLine s1).1 ++ j ++ k ++ pre, hdr, b64, sep, post, ?_, hsep, hb⟩
            rw [hp]
            conv => lhs; rw [hj, hk, ht]
            simp only [List.append_assoc]
          · rename_i r' hbd
            cases h
            obtain ⟨ht, b64, sep, post, hs2, hsep, hb⟩ := body_eq hbd
            rw [hty] at ht hs2
            refine ⟨p, j ++ k, b64, sep, post, ?_, hsep, hb⟩
            rw [ht, hp]
            conv => lhs; rw [hj, hk, hs2, ← hv]
            simp only [List.append_assoc, begin, fin, dashes]

theorem plain_certificate : PlainType (go!"CERTIFICATE") := by constructor <;> decide
theorem plain_key : PlainType (go!"PRIVATE KEY") := by constructor <;> decide

end Pem

open Pem

/-! ### C102 -/

/-- C102 with the PEM decoder of the library: reading a PEM text adds exactly the certificates among its blocks, in the order of
the text, and reports whether there were any. -/
theorem C102_pem_text (parse : Str → Option Cert) (ops : List POp) (s : CertPool) (hs : poolRun .new ops = .ok s) (text : Str) :
    ∃ bs s', PemBlocks decode text bs ∧
      CertPool.appendPEM decode parse text.length s text = .ok (s', !(bs.filterMap (certOf parse)).isEmpty) ∧
      poolRun .new (ops ++ (bs.filterMap (certOf parse)).map .add) = .ok s' :=
  C102_pem_adds_certificates decode parse (fun _ _ _ h => decode_rest h) ops s hs text text.length (Nat.le_refl _)

theorem pemBlocks_bundle (certs : List Str) :
    PemBlocks decode (certs.flatMap (encode (go!"CERTIFICATE"))) (certs.map fun c => ⟨go!"CERTIFICATE", [], c⟩) := by
  induction certs with
  | nil => exact .done
  | cons c t ih =>
    refine .block ?_ (decode_encode _ c _ plain_certificate) ih
    simp [encode, begin]

theorem PemBlocks.unique {dec : Str → Option (CertPool.PemBlock × Str)} {t : Str} {a b : List CertPool.PemBlock}
    (h1 : PemBlocks dec t a) (h2 : PemBlocks dec t b) : a = b := by
  induction h1 generalizing b with
  | done =>
    cases h2 with
    | done => rfl
    | junk h _ => exact absurd rfl h
    | block h _ _ => exact absurd rfl h
  | junk h hd =>
    cases h2 with
    | done => exact absurd rfl h
    | junk _ _ => rfl
    | block _ h2 _ => rw [hd] at h2; cases h2
  | block h hd _ ih =>
    cases h2 with
    | done => exact absurd rfl h
    | junk _ h2 => rw [hd] at h2; cases h2
    | block _ h2 h3 => rw [hd] at h2; cases h2; rw [ih h3]

/-- C102. Certificates written one after the other in PEM form are all added, in order. -/
theorem C102_pem_bundle (parse : Str → Option Cert) (ops : List POp) (s : CertPool) (hs : poolRun .new ops = .ok s)
    (certs : List Str) (cs : List Cert) (hp : certs.map parse = cs.map some) :
    ∃ s', CertPool.appendPEM decode parse (certs.flatMap (encode (go!"CERTIFICATE"))).length s
        (certs.flatMap (encode (go!"CERTIFICATE"))) = .ok (s', !cs.isEmpty) ∧
      poolRun .new (ops ++ cs.map .add) = .ok s' := by
  obtain ⟨bs, s', h1, h2, h3⟩ := C102_pem_text parse ops s hs (certs.flatMap (encode (go!"CERTIFICATE")))
  have hbs := h1.unique (pemBlocks_bundle certs)
  have hf : bs.filterMap (certOf parse) = cs := by
    rw [hbs]
    clear hbs h1 h2 h3
    induction certs generalizing cs with
    | nil => cases cs with
      | nil => rfl
      | cons => simp at hp
    | cons c t ih =>
      cases cs with
      | nil => simp at hp
      | cons d ds =>
        simp only [List.map_cons, List.cons.injEq] at hp
        simp [certOf, hp.1, ← ih ds hp.2]
  rw [hf] at h2 h3
  exact ⟨s', h2, h3⟩

/-! ### C107 -/

/-- A write to disk. -/
inductive DiskOp (K : Type) where
  | cert (bytes path : Str)
  | key (k : K) (path : Str)

def DiskOp.path {K : Type} : DiskOp K → Str
  | .cert _ p => p
  | .key _ p => p

def DiskOp.run {K : Type} (P : Pkcs8 K) (fs : Files) : DiskOp K → Files
  | .cert b p => saveCertificate fs b p
  | .key k p => saveKey P fs k p

theorem diskRun_get {K : Type} (P : Pkcs8 K) (path : Str) (ops : List (DiskOp K)) (h : ∀ o ∈ ops, o.path ≠ path) (fs : Files) :
    (ops.foldl (DiskOp.run P) fs).get path = fs.get path := by
  induction ops generalizing fs with
  | nil => rfl
  | cons o t ih =>
    rw [List.foldl_cons, ih (fun o' h' => h o' (by simp [h']))]
    have := h o (by simp)
    cases o with
    | cert b p => exact GoMap.get_set_ne _ _ (fun e => this e.symm)
    | key k p => exact GoMap.get_set_ne _ _ (fun e => this e.symm)

/-- C107. A certificate that was saved is read back byte for byte, whatever was saved under other paths before and after. -/
theorem C107_certificates_survive {K : Type} (P : Pkcs8 K) (fs : Files) (cert path : Str) (ops : List (DiskOp K))
    (h : ∀ o ∈ ops, o.path ≠ path) :
    readCertificate (ops.foldl (DiskOp.run P) (saveCertificate fs cert path)) path = some cert := by
  unfold readCertificate
  rw [diskRun_get P path ops h]
  unfold saveCertificate
  rw [GoMap.get_set_self]
  have := decode_encode (go!"CERTIFICATE") cert [] plain_certificate
  rw [List.append_nil] at this
  simp only [this]

/-- C107. The same for private keys. -/
theorem C107_keys_survive {K : Type} (P : Pkcs8 K) (hP : P.Laws) (fs : Files) (k : K) (path : Str) (ops : List (DiskOp K))
    (h : ∀ o ∈ ops, o.path ≠ path) : readKey P (ops.foldl (DiskOp.run P) (saveKey P fs k path)) path = some k := by
  unfold readKey
  rw [diskRun_get P path ops h]
  unfold saveKey
  rw [GoMap.get_set_self]
  have := decode_encode (go!"PRIVATE KEY") (P.marshal k) [] plain_key
  rw [List.append_nil] at this
  simp only [this, hP.rt]

/-! ### C108 -/

/-- C108 fails: `ReadCertificateFromDisk` does not look at the type of the block and returns the bytes of a private key file. -/
theorem C108_violated_any_block {K : Type} (P : Pkcs8 K) (fs : Files) (k : K) (path : Str) :
    readCertificate (saveKey P fs k path) path = some (P.marshal k) := by
  unfold readCertificate saveKey
  rw [GoMap.get_set_self]
  have := decode_encode (go!"PRIVATE KEY") (P.marshal k) [] plain_key
  rw [List.append_nil] at this
  simp only [this]

/-- What holds of C108: what is returned is the content of the first block of the file, so of a certificate if all blocks of the
file are certificates; a file without blocks is an error. -/
theorem C108_first_block_partial (fs : Files) (path text : Str) (hf : fs.get path = some text) (bs : List CertPool.PemBlock)
    (hb : PemBlocks decode text bs) (htype : ∀ b ∈ bs, b.type = go!"CERTIFICATE") :
    readCertificate fs path = (bs.filter fun b => b.type = go!"CERTIFICATE").head?.map (·.bytes) := by
  have hall : (bs.filter fun b => decide (b.type = go!"CERTIFICATE")) = bs := by
    rw [List.filter_eq_self]; intro b hb; simp [htype b hb]
  rw [hall]
  unfold readCertificate
  rw [hf]
  cases hb with
  | done => rfl
  | junk _ hd => simp [hd]
  | block _ hd _ => simp [hd]

/-- What holds of C108, in terms of the text: what is returned is the content of a block of the file, with a BEGIN and an END line
of one and the same type. -/
theorem C108_block_of_file_partial (fs : Files) (path b : Str) (h : readCertificate fs path = some b) :
    ∃ text ty, fs.get path = some text ∧ HoldsBlock text ty b := by
  unfold readCertificate at h
  split at h
  · cases h
  · rename_i text hf
    split at h
    · cases h
    · rename_i r _ hd
      cases h
      exact ⟨text, _, hf, decodeN_eq _ hd⟩

/-! ### Examples -/

namespace Ref

/-- A bundle of two certificates; the first is longer than a line. -/
example : PemBlocks decode ([List.replicate 60 7, go!"ab"].flatMap (encode (go!"CERTIFICATE")))
    [⟨go!"CERTIFICATE", [], List.replicate 60 7⟩, ⟨go!"CERTIFICATE", [], go!"ab"⟩] := pemBlocks_bundle _

/-- A key library whose keys are their own encodings. -/
def pkcs8 : Pkcs8 Str := ⟨id, fun b => some (.rsa b)⟩

example : pkcs8.Laws ∧ readKey pkcs8 ([DiskOp.cert (go!"c") (go!"a.crt")].foldl (DiskOp.run pkcs8)
    (saveKey pkcs8 .empty (go!"secret") (go!"a.key"))) (go!"a.key") = some (go!"secret") :=
  ⟨⟨fun _ => rfl⟩, C107_keys_survive pkcs8 ⟨fun _ => rfl⟩ _ _ _ _ (by intro o ho; simp at ho; subst ho; decide)⟩

/-- The decoder on text with other lines around the block, a header and spaces. -/
example : decode (go!"x\n-----BEGIN A-----\nk: v\n\nYW I=\n-----END A-----\nrest") =
    some (⟨go!"A", [(go!"k", go!"v")], go!"ab"⟩, go!"rest") := by decide +kernel

example : readCertificate (saveCertificate .empty (go!"ab") (go!"p")) (go!"p") =
    (([⟨go!"CERTIFICATE", [], go!"ab"⟩] : List CertPool.PemBlock).filter fun b => b.type = go!"CERTIFICATE").head?.map (·.bytes) :=
  C108_first_block_partial _ _ (encode (go!"CERTIFICATE") (go!"ab")) (GoMap.get_set_self _ _ _) _
    (by simpa using pemBlocks_bundle [go!"ab"]) (by simp)

/-- A file with two blocks, the first of which does not end as it begins: the second is returned, and it is a block of the file. -/
example : readCertificate (GoMap.set .empty (go!"p") (go!"-----BEGIN A-----\nYQ==\n-----END C-----\n-----BEGIN B-----\nYWI=\n-----END B-----\n")) (go!"p") =
    some (go!"ab") := by decide +kernel

example : HoldsBlock (go!"-----BEGIN B-----\nYWI=\n-----END B-----\n") (go!"B") (go!"ab") :=
  ⟨[], [10], go!"YWI=", [10], [10], by decide, .inr rfl, by decide +kernel⟩

end Ref
end CTng
