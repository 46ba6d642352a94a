import Verif.Model.FileTree
/- C109, C110: removing storage directories, storing periods. -/
set_option autoImplicit false

namespace CTng
namespace FileTree

/-! ### Paths -/

theorem splitSlash_ne (s : Str) : splitSlash s ≠ [] := by
  cases s with
  | nil => simp [splitSlash]
  | cons c t =>
    unfold splitSlash
    split
    · simp
    · split <;> simp

theorem splitSlash_append (s m : Str) : splitSlash (s ++ 47 :: m) = splitSlash s ++ splitSlash m := by
  induction s with
  | nil =>
    show splitSlash (47 :: m) = [] :: splitSlash m
    rw [splitSlash]
    split
    · rename_i h; exact absurd h (splitSlash_ne m)
    · rename_i h; rw [if_pos rfl, h]
  | cons c t ih =>
    rw [List.cons_append, splitSlash, splitSlash, ih]
    cases h : splitSlash t with
    | nil => exact absurd h (splitSlash_ne t)
    | cons a r => simp only [List.cons_append]; split <;> rfl

theorem splitSlash_single {m : Str} (h : (47 : UInt8) ∉ m) : splitSlash m = [m] := by
  induction m with
  | nil => rfl
  | cons c t ih =>
    rw [List.mem_cons, not_or] at h
    rw [splitSlash, ih h.2]
    simp [Ne.symm h.1]

theorem resolve_slash {cwd : Path} {s m : Str} (hs : s ≠ []) (hm : (47 : UInt8) ∉ m) :
    resolve cwd (s ++ go!"/" ++ m) = walk (resolve cwd s) m := by
  have e : s ++ go!"/" ++ m = s ++ 47 :: m := by simp
  have hh : (s ++ 47 :: m).head? = s.head? := by cases s with
    | nil => exact absurd rfl hs
    | cons => rfl
  rw [e]
  unfold resolve
  rw [splitSlash_append, splitSlash_single hm, List.foldl_append, hh]
  rfl

theorem resolve_name {cwd : Path} {s m : Str} (hs : s ≠ []) (hm : Name m) :
    resolve cwd (s ++ go!"/" ++ m) = resolve cwd s ++ [m] := by
  rw [resolve_slash hs hm.2.2.2, walk, if_neg (by simp [hm.1, hm.2.1]), if_neg hm.2.2.1]

theorem endsInName_slash {s m : Str} (hm : Name m) : endsInName (s ++ go!"/" ++ m) = true := by
  have e : s ++ go!"/" ++ m = s ++ 47 :: m := by simp
  rw [e]
  unfold endsInName
  rw [splitSlash_append, splitSlash_single hm.2.2.2, List.filter_append]
  have : ([m].filter fun c => decide (c ≠ [])) = [m] := by simp [hm.1]
  rw [this]
  simp [hm.2.1, hm.2.2.1]

theorem endsInName_ne {s : Str} (h : endsInName s = true) : s ≠ [] := by
  rintro rfl; cases h

/-! ### C109 -/

theorem has_get {fs : FS} {p : Path} : fs.has p = false ↔ fs.get p = none := by
  have := GoMap.has_iff fs p
  cases h : fs.has p with
  | true => rw [h] at this; obtain ⟨v, hv⟩ := this.1 rfl; simp [hv]
  | false =>
    cases hg : fs.get p with
    | none => simp
    | some v => rw [h] at this; exact absurd (this.2 ⟨v, hg⟩) (by simp)

theorem get_erase (fs : FS) (p q : Path) : (fs.erase p).get q = if q = p then none else fs.get q := by
  split
  · rename_i h; rw [h, GoMap.get_erase_self]
  · rename_i h; rw [GoMap.get_erase_ne _ h]

/-- Every path below the root of the tree has names. -/
def Names (fs : FS) : Prop := ∀ p n, fs.has (p ++ [n]) = true → Name n

/-- The parent of every node is a directory. -/
def Parents (fs : FS) : Prop := ∀ p n, fs.has (p ++ [n]) = true → fs.get p = some .dir

theorem Parents.prefixes {fs : FS} (h : Parents fs) (p q : Path) (hq : fs.has (p ++ q) = true) : fs.has p = true := by
  generalize hn : q.length = n
  induction n generalizing q with
  | zero => cases q with
    | nil => simpa using hq
    | cons => simp at hn
  | succ n ih =>
    rcases List.eq_nil_or_concat q with rfl | ⟨r, x, rfl⟩
    · simp at hn
    · refine ih r ?_ (by simpa using hn)
      have := h (p ++ r) x (by simpa using hq)
      exact (GoMap.has_iff _ _).2 ⟨_, this⟩

theorem remove_ok {S : OS} (hS : S.Laws) {fs : FS} {s : Str} (he : endsInName s = true) (hr : resolve S.cwd s ≠ [])
    (hh : fs.has (resolve S.cwd s) = true) (hc : ∀ n, fs.has (resolve S.cwd s ++ [n]) = false) :
    remove S fs s = (fs.erase (resolve S.cwd s), true) := by
  unfold remove
  obtain ⟨v, hv⟩ := (GoMap.has_iff _ _).1 hh
  have hl : S.ls fs (resolve S.cwd s) = [] := by
    rw [List.eq_nil_iff_forall_not_mem]
    intro n hn
    have := (hS.mem _ _ _).1 hn
    rw [hc n] at this; cases this
  simp only [he, hr, hv, hl]
  cases v <;> simp

/-- What `deleteN` does with `n` levels. -/
def DeleteOk (S : OS) (n : Nat) : Prop := ∀ (fs : FS) (s : Str), endsInName s = true → resolve S.cwd s ≠ [] →
    fs.get (resolve S.cwd s) = some .dir → Names fs → Parents fs →
    (∀ q, fs.has q = true → q.length < (resolve S.cwd s).length + n) →
    ∃ fs', deleteN S n fs s = (fs', true) ∧
      ∀ q, fs'.get q = if (resolve S.cwd s).isPrefixOf q then none else fs.get q

/-- The loop removes what is below the directory. -/
theorem deleteLoop_ok {S : OS} (hS : S.Laws) {n : Nat} (ih : DeleteOk S n) (fs : FS) (s : Str) (hne : s ≠ [])
    (hd : fs.get (resolve S.cwd s) = some .dir) (hnm : Names fs) (hpar : Parents fs)
    (hlen : ∀ q, fs.has q = true → q.length < (resolve S.cwd s).length + (n + 1)) :
    ∃ fs1, deleteLoop S (deleteN S n) s fs ((S.ls fs (resolve S.cwd s)).map fun m =>
        (m, decide (fs.get (resolve S.cwd s ++ [m]) = some .dir))) = (fs1, true) ∧
      ∀ q, fs1.get q = if q ≠ resolve S.cwd s ∧ (resolve S.cwd s).isPrefixOf q then none else fs.get q := by
  generalize hp : resolve S.cwd s = p at *
  -- the loop
  have loop : ∀ (l done : List Str) (fs1 : FS), (∀ m ∈ l, m ∉ done ∧ fs.has (p ++ [m]) = true) → l.Nodup →
      (∀ q, fs1.get q = if done.any (fun m => (p ++ [m]).isPrefixOf q) then none else fs.get q) →
      ∃ fs', deleteLoop S (deleteN S n) s fs1 (l.map fun m => (m, decide (fs.get (p ++ [m]) = some .dir))) = (fs', true) ∧
        ∀ q, fs'.get q = if (done ++ l).any (fun m => (p ++ [m]).isPrefixOf q) then none else fs.get q := by
    intro l
    induction l with
    | nil => intro done fs1 _ _ h; exact ⟨fs1, rfl, by simpa using h⟩
    | cons m t iht =>
      intro done fs1 hl hnd h1
      obtain ⟨hmd, hmh⟩ := hl m (by simp)
      have hname := hnm _ _ hmh
      have hrm : resolve S.cwd (s ++ go!"/" ++ m) = p ++ [m] := by rw [resolve_name hne hname, hp]
      have hem : endsInName (s ++ go!"/" ++ m) = true := endsInName_slash hname
      have hkeep : ∀ q, (p ++ [m]).isPrefixOf q = true → fs1.get q = fs.get q := by
        intro q hq
        rw [h1, if_neg]
        rw [List.any_eq_true]
        rintro ⟨x, hx, hxq⟩
        obtain ⟨a, rfl⟩ := List.isPrefixOf_iff_prefix.1 hq
        obtain ⟨b, hb⟩ := List.isPrefixOf_iff_prefix.1 hxq
        rw [List.append_assoc, List.append_assoc] at hb
        have := List.append_cancel_left hb
        simp only [List.cons_append, List.nil_append, List.cons.injEq] at this
        exact hmd (this.1 ▸ hx)
      have hsub : ∀ q, fs1.has q = true → fs.has q = true := by
        intro q hq
        obtain ⟨v, hv⟩ := (GoMap.has_iff _ _).1 hq
        rw [h1] at hv
        split at hv
        · cases hv
        · exact (GoMap.has_iff _ _).2 ⟨v, hv⟩
      -- what one entry does
      have hstep : ∃ fs2, (if decide (fs.get (p ++ [m]) = some .dir) then deleteN S n fs1 (s ++ go!"/" ++ m)
          else remove S fs1 (s ++ go!"/" ++ m)) = (fs2, true) ∧
          ∀ q, fs2.get q = if (p ++ [m]).isPrefixOf q then none else fs1.get q := by
        have hself : (p ++ [m]).isPrefixOf (p ++ [m]) = true := List.isPrefixOf_iff_prefix.2 ⟨[], by simp⟩
        by_cases hdir : fs.get (p ++ [m]) = some .dir
        · rw [if_pos (by simp [hdir])]
          have := ih fs1 (s ++ go!"/" ++ m) hem (by rw [hrm]; simp) (by rw [hrm, hkeep _ hself, hdir])
            (fun a b h => hnm a b (hsub _ h)) ?_ ?_
          · rw [hrm] at this; exact this
          · intro a b hab
            rw [h1, if_neg, hpar a b (hsub _ hab)]
            intro hany
            rw [List.any_eq_true] at hany
            obtain ⟨x, hx, hxa⟩ := hany
            obtain ⟨w, hw⟩ := (GoMap.has_iff _ _).1 hab
            rw [h1, if_pos] at hw
            · cases hw
            · rw [List.any_eq_true]
              refine ⟨x, hx, ?_⟩
              obtain ⟨c, hc⟩ := List.isPrefixOf_iff_prefix.1 hxa
              exact List.isPrefixOf_iff_prefix.2 ⟨c ++ [b], by rw [← hc]; simp⟩
          · intro q hq
            have := hlen q (hsub q hq)
            rw [hrm]; simp only [List.length_append, List.length_cons, List.length_nil]; omega
        · rw [if_neg (by simp [hdir])]
          have hchild : ∀ k, (p ++ [m]).isPrefixOf k = true → k ≠ p ++ [m] → fs.has k = false := by
            intro k hk hkne
            cases hh : fs.has k with
            | false => rfl
            | true =>
              exfalso
              obtain ⟨a, ha⟩ := List.isPrefixOf_iff_prefix.1 hk
              cases a with
              | nil => exact hkne (by rw [← ha]; simp)
              | cons x a =>
                have hx : fs.has (p ++ [m] ++ [x]) = true := hpar.prefixes _ a (by
                  have : p ++ [m] ++ [x] ++ a = k := by rw [← ha]; simp
                  rw [this]; exact hh)
                exact hdir (hpar _ _ hx)
          refine ⟨fs1.erase (p ++ [m]), ?_, ?_⟩
          · have := remove_ok hS (fs := fs1) hem (by rw [hrm]; simp) ?_ ?_
            · rw [this, hrm]
            · rw [hrm]
              obtain ⟨v, hv⟩ := (GoMap.has_iff _ _).1 hmh
              exact (GoMap.has_iff _ _).2 ⟨v, by rw [hkeep _ hself, hv]⟩
            · intro k
              rw [hrm, has_get, hkeep _ (List.isPrefixOf_iff_prefix.2 ⟨_, rfl⟩)]
              exact has_get.1 (hchild _ (List.isPrefixOf_iff_prefix.2 ⟨_, rfl⟩) (by simp))
          · intro q
            rw [get_erase]
            by_cases hq : q = p ++ [m]
            · rw [if_pos hq, hq, if_pos hself]
            · rw [if_neg hq]
              split
              · rename_i hpq
                rw [hkeep _ hpq]; exact has_get.1 (hchild q hpq hq)
              · rfl
      obtain ⟨fs2, h2, h3⟩ := hstep
      obtain ⟨fs', h4, h5⟩ := iht (done ++ [m]) fs2 (by
          intro x hx
          refine ⟨?_, (hl x (by simp [hx])).2⟩
          rw [List.mem_append, not_or]
          refine ⟨(hl x (by simp [hx])).1, ?_⟩
          rw [List.mem_singleton]
          rintro rfl
          exact (List.nodup_cons.1 hnd).1 hx)
        (List.nodup_cons.1 hnd).2
        (by
          intro q
          rw [h3, h1]
          simp only [List.any_append, List.any_cons, List.any_nil, Bool.or_false]
          cases done.any (fun m => (p ++ [m]).isPrefixOf q) <;> cases (p ++ [m]).isPrefixOf q <;> simp)
      refine ⟨fs', ?_, ?_⟩
      · rw [List.map_cons, deleteLoop]
        simp only [h2]
        exact h4
      · intro q; rw [h5]; simp
  obtain ⟨fs1, h1, h2⟩ := loop (S.ls fs p) [] fs (fun m hm => ⟨by simp, (hS.mem _ _ _).1 hm⟩) (hS.nodup _ _) (by simp)
  have hunder : ∀ q, (S.ls fs p).any (fun m => (p ++ [m]).isPrefixOf q) = false → p.isPrefixOf q = true → q = p ∨
      fs.get q = none := by
    intro q hq hpq
    obtain ⟨a, rfl⟩ := List.isPrefixOf_iff_prefix.1 hpq
    cases a with
    | nil => left; simp
    | cons x a =>
      right
      rw [← has_get]
      cases hh : fs.has (p ++ x :: a) with
      | false => rfl
      | true =>
        exfalso
        have hx : fs.has (p ++ [x]) = true := hpar.prefixes _ a (by simpa using hh)
        have : (S.ls fs p).any (fun m => (p ++ [m]).isPrefixOf (p ++ x :: a)) = true := by
          rw [List.any_eq_true]
          exact ⟨x, (hS.mem _ _ _).2 hx, List.isPrefixOf_iff_prefix.2 ⟨a, by simp⟩⟩
        rw [hq] at this; cases this
  have hpp : (S.ls fs p).any (fun m => (p ++ [m]).isPrefixOf p) = false := by
    rw [List.any_eq_false]
    intro m _ hm
    have := (List.isPrefixOf_iff_prefix.1 hm).length_le
    simp only [List.length_append, List.length_cons, List.length_nil] at this
    omega
  refine ⟨fs1, h1, fun q => ?_⟩
  rw [h2, List.nil_append]
  by_cases hq : q = p
  · subst hq; rw [hpp]; simp
  · cases hany : (S.ls fs p).any (fun m => (p ++ [m]).isPrefixOf q) with
    | true =>
      rw [List.any_eq_true] at hany
      obtain ⟨m, _, hm⟩ := hany
      obtain ⟨c, hc⟩ := List.isPrefixOf_iff_prefix.1 hm
      rw [if_pos rfl, if_pos ⟨hq, List.isPrefixOf_iff_prefix.2 ⟨m :: c, by rw [← hc]; simp⟩⟩]
    | false =>
      rw [if_neg (by simp)]
      split
      · rename_i hpq
        rcases hunder q hany hpq.2 with h | h
        · exact absurd h hq
        · exact h
      · rfl

theorem deleteN_ok {S : OS} (hS : S.Laws) (n : Nat) : DeleteOk S n := by
  induction n with
  | zero =>
    intro fs s _ _ hd _ _ hlen
    have := hlen _ ((GoMap.has_iff _ _).2 ⟨_, hd⟩)
    omega
  | succ n ih =>
    intro fs s he hr hd hnm hpar hlen
    have hne := endsInName_ne he
    obtain ⟨fs1, h1, h2⟩ := deleteLoop_ok hS ih fs s hne hd hnm hpar hlen
    generalize hp : resolve S.cwd s = p at *
    have hrem := remove_ok hS (fs := fs1) he (by rw [hp]; exact hr)
      (by
        rw [hp]
        refine (GoMap.has_iff _ _).2 ⟨.dir, ?_⟩
        rw [h2]; simpa using hd)
      (by
        intro m
        rw [hp, has_get, h2, if_pos]
        exact ⟨by simp, List.isPrefixOf_iff_prefix.2 ⟨_, rfl⟩⟩)
    refine ⟨fs1.erase p, ?_, ?_⟩
    · rw [deleteN]
      simp only [hp, if_neg hne, hd, h1, hrem]
      simp
    · intro q
      rw [get_erase, h2]
      by_cases hq : q = p
      · rw [if_pos hq, hq, if_pos (List.isPrefixOf_iff_prefix.2 ⟨[], by simp⟩)]
      · rw [if_neg hq]
        simp [hq]

/-- Without a name at the end the directory itself stays. -/
theorem deleteN_dot {S : OS} (hS : S.Laws) (n : Nat) (fs : FS) (s : Str) (hne : s ≠ []) (he : endsInName s = false)
    (hd : fs.get (resolve S.cwd s) = some .dir) (hnm : Names fs) (hpar : Parents fs)
    (hlen : ∀ q, fs.has q = true → q.length < (resolve S.cwd s).length + (n + 1)) :
    ∃ fs', deleteN S (n + 1) fs s = (fs', false) ∧
      ∀ q, fs'.get q = if q ≠ resolve S.cwd s ∧ (resolve S.cwd s).isPrefixOf q then none else fs.get q := by
  obtain ⟨fs1, h1, h2⟩ := deleteLoop_ok hS (deleteN_ok hS n) fs s hne hd hnm hpar hlen
  refine ⟨fs1, ?_, h2⟩
  rw [deleteN]
  simp only [if_neg hne, hd, h1, remove, he]
  simp

/-- A path string that ends in a name, perhaps with slashes behind it. -/
def EndsWithName (s : Str) : Prop :=
  ∃ d n k, s = d ++ n ++ List.replicate k 47 ∧ Name n ∧ (d = [] ∨ ∃ d', d = d' ++ [47])

theorem filter_slashes (s : Str) (k : Nat) : ((splitSlash (s ++ List.replicate k 47)).filter fun c => decide (c ≠ [])) =
    (splitSlash s).filter fun c => decide (c ≠ []) := by
  induction k with
  | zero => simp
  | succ k ih =>
    have e : s ++ List.replicate (k + 1) 47 = (s ++ List.replicate k 47) ++ 47 :: [] := by
      rw [List.replicate_succ']; simp
    rw [e, splitSlash_append, List.filter_append, ih]
    simp [splitSlash]

theorem endsInName_at (d n : Str) (k : Nat) (hd : d = [] ∨ ∃ d', d = d' ++ [47]) (hn : n ≠ []) (hs : (47 : UInt8) ∉ n) :
    endsInName (d ++ n ++ List.replicate k 47) = decide (n ≠ go!"." ∧ n ≠ go!"..") := by
  unfold endsInName
  rw [filter_slashes]
  rcases hd with rfl | ⟨d', rfl⟩
  · rw [List.nil_append, splitSlash_single hs]
    simp [hn]
  · have e : d' ++ [47] ++ n = d' ++ 47 :: n := by simp
    rw [e, splitSlash_append, splitSlash_single hs, List.filter_append]
    have : ([n].filter fun c => decide (c ≠ [])) = [n] := by simp [hn]
    rw [this]
    simp

/-- Every string is slashes only or ends in a component, with slashes behind it. -/
theorem path_cases (s : Str) : (∃ k, s = List.replicate k 47) ∨
    ∃ d n k, s = d ++ n ++ List.replicate k 47 ∧ n ≠ [] ∧ (47 : UInt8) ∉ n ∧ (d = [] ∨ ∃ d', d = d' ++ [47]) := by
  generalize hl : s.length = l
  induction l generalizing s with
  | zero => exact .inl ⟨0, by simpa using hl⟩
  | succ l ih =>
    rcases List.eq_nil_or_concat s with rfl | ⟨t, c, rfl⟩
    · simp at hl
    · have ht : t.length = l := by simpa using hl
      by_cases hc : c = 47
      · subst hc
        rcases ih t ht with ⟨k, rfl⟩ | ⟨d, n, k, rfl, h⟩
        · exact .inl ⟨k + 1, by rw [List.replicate_succ', List.concat_eq_append]⟩
        · exact .inr ⟨d, n, k + 1, by rw [List.replicate_succ']; simp, h⟩
      · right
        rcases ih t ht with ⟨k, rfl⟩ | ⟨d, n, k, rfl, hn, hs, hd⟩
        · refine ⟨List.replicate k 47, [c], 0, by simp, by simp, by simpa using Ne.symm hc, ?_⟩
          cases k with
          | zero => exact .inl rfl
          | succ k => exact .inr ⟨List.replicate k 47, by rw [List.replicate_succ']⟩
        · cases k with
          | zero => exact ⟨d, n ++ [c], 0, by simp, by simp, by simp [hs, Ne.symm hc], hd⟩
          | succ k =>
            refine ⟨d ++ n ++ List.replicate (k + 1) 47, [c], 0, by simp, by simp, by simpa using Ne.symm hc, .inr ?_⟩
            exact ⟨d ++ n ++ List.replicate k 47, by rw [List.replicate_succ']; simp⟩

theorem endsInName_iff (s : Str) : endsInName s = true ↔ EndsWithName s := by
  constructor
  · intro h
    rcases path_cases s with ⟨k, rfl⟩ | ⟨d, n, k, rfl, hn, hs, hd⟩
    · exfalso
      have : endsInName (([] : Str) ++ List.replicate k 47) = false := by
        unfold endsInName
        rw [filter_slashes]
        rfl
      rw [List.nil_append] at this
      rw [this] at h; cases h
    · rw [endsInName_at d n k hd hn hs, decide_eq_true_eq] at h
      exact ⟨d, n, k, rfl, ⟨hn, h.1, h.2, hs⟩, hd⟩
  · rintro ⟨d, n, k, rfl, hn, hd⟩
    rw [endsInName_at d n k hd hn.1 hn.2.2.2, decide_eq_true_eq]
    exact ⟨hn.2.1, hn.2.2.1⟩

theorem depth_bound (fs : FS) (q : Path) (h : fs.has q = true) : q.length ≤ depth fs := by
  unfold depth
  have hm : q.length ∈ fs.keys.map List.length :=
    List.mem_map_of_mem ((GoMap.mem_keys_iff _ _).2 ((GoMap.has_iff _ _).1 h))
  have key : ∀ (l : List Nat) (a : Nat), (∀ x ∈ l, x ≤ l.foldl Nat.max a) ∧ a ≤ l.foldl Nat.max a := by
    intro l
    induction l with
    | nil => intro a; simp
    | cons y t ih =>
      intro a
      have h1 := (ih (Nat.max a y)).2
      have h2 : a ≤ Nat.max a y := Nat.le_max_left _ _
      have h3 : y ≤ Nat.max a y := Nat.le_max_right _ _
      refine ⟨?_, Nat.le_trans h2 h1⟩
      intro x hx
      rcases List.mem_cons.1 hx with rfl | hx
      · exact Nat.le_trans h3 h1
      · exact (ih _).1 x hx
  exact (key _ 0).1 _ hm

end FileTree
open FileTree

/-- C109. `DeleteFilesAndDirectories` of a directory removes the directory and everything below it, nothing else, and reports
success, in whatever order directories are listed. -/
theorem C109_delete_removes_tree (S : OS) (hS : S.Laws) (fs : FS) (hw : fs.WF) (s : Str) (hn : EndsWithName s)
    (hr : resolve S.cwd s ≠ []) (hd : fs.get (resolve S.cwd s) = some .dir) :
    (deleteAll S fs s).2 = true ∧
      ∀ q, (deleteAll S fs s).1.get q = if resolve S.cwd s <+: q then none else fs.get q := by
  obtain ⟨fs', h1, h2⟩ := deleteN_ok hS (depth fs + 1) fs s ((endsInName_iff s).2 hn) hr hd hw.name hw.parent
    (fun q hq => by have := depth_bound fs q hq; omega)
  unfold deleteAll
  rw [h1]
  refine ⟨rfl, fun q => ?_⟩
  rw [h2]
  by_cases hq : resolve S.cwd s <+: q
  · rw [if_pos hq, if_pos (List.isPrefixOf_iff_prefix.2 hq)]
  · rw [if_neg hq, if_neg (fun h => hq (List.isPrefixOf_iff_prefix.1 h))]

/-- C109. If the path does not end in a name, but in `.` or `..`, everything below the directory is removed, the directory
stays, and an error is reported. -/
theorem C109_delete_dot (S : OS) (hS : S.Laws) (fs : FS) (hw : fs.WF) (s : Str) (hs : s ≠ []) (hn : ¬ EndsWithName s)
    (hd : fs.get (resolve S.cwd s) = some .dir) :
    (deleteAll S fs s).2 = false ∧ (deleteAll S fs s).1.get (resolve S.cwd s) = some .dir ∧
      ∀ q, q ≠ resolve S.cwd s → (deleteAll S fs s).1.get q = if resolve S.cwd s <+: q then none else fs.get q := by
  have he : endsInName s = false := by
    cases h : endsInName s with
    | false => rfl
    | true => exact absurd ((endsInName_iff s).1 h) hn
  obtain ⟨fs', h1, h2⟩ := deleteN_dot hS (depth fs) fs s hs he hd hw.name hw.parent
    (fun q hq => by have := depth_bound fs q hq; omega)
  unfold deleteAll
  rw [h1]
  refine ⟨rfl, ?_, fun q hq' => ?_⟩
  · rw [h2, if_neg (fun h => h.1 rfl)]; exact hd
  rw [h2]
  by_cases hq : resolve S.cwd s <+: q
  · rw [if_pos hq, if_pos ⟨hq', List.isPrefixOf_iff_prefix.2 hq⟩]
  · rw [if_neg hq, if_neg (fun h => hq (List.isPrefixOf_iff_prefix.1 h.2))]

/-- C109. On anything but a directory it changes nothing and reports an error. -/
theorem C109_delete_other (S : OS) (fs : FS) (s : Str) (hd : fs.get (resolve S.cwd s) ≠ some .dir) :
    deleteAll S fs s = (fs, false) := by
  unfold deleteAll deleteN
  split
  · rfl
  · simp only

/-! ### C110 -/

namespace FileTree

theorem mkdirs_spec (l : List Str) : ∀ (fs : FS) (d : Path), (∀ k, k <+: l → k ≠ [] → ∀ b, fs.get (d ++ k) ≠ some (.file b)) →
    ∃ fs', mkdirs fs d l = some fs' ∧ (∀ k, k <+: l → k ≠ [] → fs'.get (d ++ k) = some .dir) ∧
      ∀ q, (∀ k, k <+: l → k ≠ [] → q ≠ d ++ k) → fs'.get q = fs.get q := by
  induction l with
  | nil =>
    intro fs d _
    refine ⟨fs, rfl, ?_, fun _ _ => rfl⟩
    intro k hk hne
    exact absurd (List.prefix_nil.1 hk) hne
  | cons n t ih =>
    intro fs d h
    have hn : [n] <+: n :: t := ⟨t, rfl⟩
    have hext : ∀ k, k <+: t → (n :: k) <+: n :: t := fun k hk => List.cons_prefix_cons.2 ⟨rfl, hk⟩
    have hassoc : ∀ k : List Str, d ++ [n] ++ k = d ++ (n :: k) := fun k => by simp
    -- the file system the recursion goes on with
    have key : ∀ fs1 : FS, fs1.get (d ++ [n]) = some .dir → (∀ q, q ≠ d ++ [n] → fs1.get q = fs.get q) →
        ∃ fs', mkdirs fs1 (d ++ [n]) t = some fs' ∧ (∀ k, k <+: n :: t → k ≠ [] → fs'.get (d ++ k) = some .dir) ∧
          ∀ q, (∀ k, k <+: n :: t → k ≠ [] → q ≠ d ++ k) → fs'.get q = fs.get q := by
      intro fs1 h1 h2
      obtain ⟨fs', e1, e2, e3⟩ := ih fs1 (d ++ [n]) (by
        intro k hk hne b
        rw [hassoc, h2 _ (by simpa using hne)]
        exact h _ (hext k hk) (by simp) b)
      refine ⟨fs', e1, ?_, ?_⟩
      · intro k hk hne
        cases k with
        | nil => exact absurd rfl hne
        | cons x k =>
          obtain ⟨rfl, hk'⟩ := List.cons_prefix_cons.1 hk
          cases k with
          | nil =>
            rw [e3 _ (by intro k _ hne; simpa using hne), h1]
          | cons y k => rw [← hassoc]; exact e2 _ hk' (by simp)
      · intro q hq
        rw [e3 q (by intro k hk hne; rw [hassoc]; exact hq _ (hext k hk) (by simp)), h2 q (hq _ hn (by simp))]
    unfold mkdirs
    split
    · rename_i hd; exact key fs hd (fun _ _ => rfl)
    · rename_i b hb; exact absurd hb (h _ hn (by simp) b)
    · exact key _ (GoMap.get_set_self _ _ _) (fun q hq => GoMap.get_set_ne _ _ hq)

theorem Parents.dirs {fs : FS} (h : Parents fs) {p : Path} (hp : fs.get p = some .dir) (k : Path)
    (hk : k <+: p) : fs.get k = some .dir := by
  obtain ⟨a, rfl⟩ := hk
  cases a with
  | nil => simpa using hp
  | cons x a =>
    refine h k x (h.prefixes _ a ?_)
    exact (GoMap.has_iff _ _).2 ⟨.dir, by simpa using hp⟩

/-- `CreateDir` makes the directory if no file is in the way. -/
theorem createDir_spec {S : OS} {fs : FS} {s : Str} (hpar : Parents fs) (hroot : fs.get [] = some .dir)
    (hclear : ∀ k, k <+: resolve S.cwd s → ∀ b, fs.get k ≠ some (.file b)) :
    (∀ k, k <+: resolve S.cwd s → (createDir S fs s).get k = some .dir) ∧
      ∀ q, ¬ q <+: resolve S.cwd s → (createDir S fs s).get q = fs.get q := by
  unfold createDir
  generalize resolve S.cwd s = p at *
  simp only
  split
  · rename_i hh
    obtain ⟨v, hv⟩ := (GoMap.has_iff _ _).1 hh
    have hd : fs.get p = some .dir := by
      cases v with
      | dir => exact hv
      | file b => exact absurd hv (hclear p (List.prefix_refl _) b)
    exact ⟨fun k hk => hpar.dirs hd k hk, fun _ _ => rfl⟩
  · obtain ⟨fs', e1, e2, e3⟩ := mkdirs_spec p fs [] (fun k hk _ b => hclear k hk b)
    rw [e1]
    refine ⟨?_, ?_⟩
    · intro k hk
      cases k with
      | nil =>
        show fs'.get [] = _
        rw [e3 [] (by intro k _ hne; simpa using Ne.symm hne), hroot]
      | cons x k => exact e2 (x :: k) hk (by simp)
    · intro q hq
      exact e3 q (by rintro k hk _ rfl; exact hq (by simpa using hk))

theorem put_spec {S : OS} {fs : FS} {s c : Str} (hw : writable fs (resolve S.cwd s)) :
    put S fs s c = (fs.set (resolve S.cwd s) (.file c), true) := by
  unfold put; rw [if_pos hw]

theorem writable_set {fs : FS} {p : Path} (h : writable fs p) (b : Str) : writable (fs.set p (.file b)) p := by
  refine ⟨h.1, ?_, by rw [GoMap.get_set_self]; simp⟩
  rw [GoMap.get_set_ne, h.2.1]
  intro e
  have := congrArg List.length e
  rw [List.length_dropLast] at this
  have : p.length ≠ 0 := fun h0 => h.1 (List.length_eq_zero_iff.1 h0)
  omega

theorem writeData_spec {S : OS} {fs : FS} {s c : Str} (hw : writable fs (resolve S.cwd s)) (q : Path) :
    (writeData S fs s (some c)).1.get q = if q = resolve S.cwd s then some (.file c) else fs.get q := by
  unfold writeData
  split
  · simp only [if_true]
    rw [put_spec hw]
    simp only [GoMap.get_set]
  · rw [put_spec hw]
    simp only [if_true]
    rw [put_spec (writable_set hw _)]
    simp only [GoMap.get_set]
    split <;> simp_all

theorem createFile_spec {S : OS} {fs : FS} {s : Str} (hw : writable fs (resolve S.cwd s)) :
    writable (createFile S fs s) (resolve S.cwd s) ∧ ∀ q, q ≠ resolve S.cwd s → (createFile S fs s).get q = fs.get q := by
  unfold createFile
  split
  · exact ⟨hw, fun _ _ => rfl⟩
  · rw [put_spec hw]
    exact ⟨writable_set hw _, fun q hq => GoMap.get_set_ne _ _ hq⟩

/-- The directory of a period. -/
def periodName (period : Str) : Str := go!"Period_" ++ period

/-- The file of a period. -/
def updateFile (P : StoragePaths) (period : Str) : Str := P.dir ++ go!"/Period_" ++ period ++ go!"/ClientUpdate.json"

theorem name_period {period : Str} (h : (47 : UInt8) ∉ period) : Name (periodName period) := by
  unfold periodName
  refine ⟨by simp, ?_, ?_, by simp [h]⟩ <;> simp

theorem name_update : Name (go!"ClientUpdate.json") := by
  refine ⟨?_, ?_, ?_, ?_⟩ <;> decide

theorem name_crv : Name (go!"CRV.json") := by
  refine ⟨?_, ?_, ?_, ?_⟩ <;> decide

section Paths
variable (cwd : Path) (filepath sid : Str)

theorem monitorPaths_crv : resolve cwd (monitorPaths filepath sid).crv = resolve cwd (monitorPaths filepath sid).dir ++ [go!"CRV.json"] := by
  have h0 : filepath ++ go!"/" ++ sid ≠ [] := by simp
  have h1 : (monitorPaths filepath sid).dir = filepath ++ go!"/" ++ sid ++ go!"/" ++ [] := by simp [monitorPaths]
  have h2 : (monitorPaths filepath sid).crv = filepath ++ go!"/" ++ sid ++ go!"/" ++ go!"CRV.json" := rfl
  rw [h1, h2, resolve_name h0 name_crv, resolve_slash h0 (by simp)]
  rfl

theorem monitorPaths_period {period : Str} (h : (47 : UInt8) ∉ period) :
    resolve cwd ((monitorPaths filepath sid).dir ++ go!"/Period_" ++ period) =
      resolve cwd (monitorPaths filepath sid).dir ++ [periodName period] := by
  have e : (monitorPaths filepath sid).dir ++ go!"/Period_" ++ period = (monitorPaths filepath sid).dir ++ go!"/" ++ periodName period := by
    simp [periodName]
  rw [e, resolve_name (by simp [monitorPaths]) (name_period h)]

theorem monitorPaths_update {period : Str} (h : (47 : UInt8) ∉ period) :
    resolve cwd (updateFile (monitorPaths filepath sid) period) =
      resolve cwd (monitorPaths filepath sid).dir ++ [periodName period, go!"ClientUpdate.json"] := by
  have e : updateFile (monitorPaths filepath sid) period =
      (monitorPaths filepath sid).dir ++ go!"/Period_" ++ period ++ go!"/" ++ go!"ClientUpdate.json" := by
    simp [updateFile]
  rw [e, resolve_name (by simp) name_update, monitorPaths_period cwd filepath sid h]
  simp

end Paths

/-- What `SaveStorage` does to the disk if nothing is in its way. -/
theorem saveStorage_spec (S : OS) (filepath sid : Str) (fs : FS) (period update crv : Str) (hper : (47 : UInt8) ∉ period)
    (hpar : Parents fs) (hroot : fs.get [] = some .dir) (D : Path) (hD : resolve S.cwd (monitorPaths filepath sid).dir = D)
    (hclear : ∀ k, k <+: D ++ [periodName period] → ∀ b, fs.get k ≠ some (.file b))
    (h1 : fs.get (D ++ [periodName period, go!"ClientUpdate.json"]) ≠ some .dir) (h2 : fs.get (D ++ [go!"CRV.json"]) ≠ some .dir) :
    let fs' := (saveStorage S (monitorPaths filepath sid) fs period update crv).1
    fs'.get (D ++ [periodName period, go!"ClientUpdate.json"]) = some (.file update) ∧
    fs'.get (D ++ [go!"CRV.json"]) = some (.file crv) ∧
    (∀ k, k <+: D ++ [periodName period] → fs'.get k = some .dir) ∧
    ∀ q, q ≠ D ++ [periodName period, go!"ClientUpdate.json"] → q ≠ D ++ [go!"CRV.json"] → ¬ q <+: D ++ [periodName period] →
      fs'.get q = fs.get q := by
  have e1 := monitorPaths_period S.cwd filepath sid hper
  have e2 := monitorPaths_update S.cwd filepath sid hper
  have e3 := monitorPaths_crv S.cwd filepath sid
  rw [hD] at e1 e2 e3
  generalize monitorPaths filepath sid = P at *
  have hcp : ¬ D ++ [go!"CRV.json"] <+: D ++ [periodName period] := by
    rw [List.prefix_append_right_inj]
    simp [periodName]
  have hup : ¬ D ++ [periodName period, go!"ClientUpdate.json"] <+: D ++ [periodName period] := by
    rw [List.prefix_append_right_inj]
    intro h; have := h.length_le; simp at this
  have hcu : D ++ [go!"CRV.json"] ≠ D ++ [periodName period, go!"ClientUpdate.json"] := by simp
  obtain ⟨c1, c2⟩ := createDir_spec (S := S) (s := P.dir ++ go!"/Period_" ++ period) hpar hroot (by rw [e1]; exact hclear)
  rw [e1] at c1 c2
  generalize hf1 : createDir S fs (P.dir ++ go!"/Period_" ++ period) = fs1 at c1 c2
  have w1 : writable fs1 (resolve S.cwd (updateFile P period)) := by
    rw [e2]
    refine ⟨by simp, ?_, by rw [c2 _ hup]; exact h1⟩
    have : (D ++ [periodName period, go!"ClientUpdate.json"]).dropLast = D ++ [periodName period] := by
      have : D ++ [periodName period, go!"ClientUpdate.json"] = (D ++ [periodName period]) ++ [go!"ClientUpdate.json"] := by simp
      rw [this, List.dropLast_concat]
    rw [this]
    exact c1 _ (List.prefix_refl _)
  obtain ⟨w2, c3⟩ := createFile_spec w1
  generalize hf2 : createFile S fs1 (updateFile P period) = fs2 at w2 c3
  have c4 := fun q => writeData_spec (c := update) w2 q
  generalize hf3 : (writeData S fs2 (updateFile P period) (some update)).1 = fs3 at c4
  rw [e2] at c3 c4
  have hDp : D <+: D ++ [periodName period] := ⟨_, rfl⟩
  have hDu : D ≠ D ++ [periodName period, go!"ClientUpdate.json"] := by simp
  have w3 : writable fs3 (resolve S.cwd P.crv) := by
    rw [e3]
    refine ⟨by simp, ?_, ?_⟩
    · rw [List.dropLast_concat, c4, if_neg hDu, c3 _ hDu, c1 _ hDp]
    · rw [c4, if_neg hcu, c3 _ hcu, c2 _ hcp]; exact h2
  have c5 := fun q => writeData_spec (c := crv) w3 q
  rw [e3] at c5
  have hres : (saveStorage S P fs period update crv).1 = (writeData S fs3 P.crv (some crv)).1 := by
    show (writeData S (writeData S (createFile S (createDir S fs _) _) _ _).1 _ _).1 = _
    rw [hf1]
    change (writeData S (writeData S (createFile S fs1 (updateFile P period)) (updateFile P period) _).1 _ _).1 = _
    rw [hf2, hf3]
  simp only [hres]
  refine ⟨?_, ?_, ?_, ?_⟩
  · rw [c5, if_neg (Ne.symm hcu), c4, if_pos rfl]
  · rw [c5, if_pos rfl]
  · intro k hk
    have k1 : k ≠ D ++ [periodName period, go!"ClientUpdate.json"] := by rintro rfl; exact hup hk
    have k2 : k ≠ D ++ [go!"CRV.json"] := by rintro rfl; exact hcp hk
    rw [c5, if_neg k2, c4, if_neg k1, c3 _ k1, c1 _ hk]
  · intro q q1 q2 q3
    rw [c5, if_neg q2, c4, if_neg q1, c3 _ q1, c2 _ q3]

/-- The update last saved for a period. -/
def lastUpdate (period : Str) (saves : List (Str × Str × Str)) : Option Str :=
  (saves.filter fun s => s.1 = period).getLast?.map fun s => s.2.1

/-- The revocation vectors last saved. -/
def lastCrv (saves : List (Str × Str × Str)) : Option Str := saves.getLast?.map fun s => s.2.2

/-- The disk `fs1` after cleaning up and some saves, starting from `fs0`. -/
structure Saved (D : Path) (fs0 fs1 : FS) (saves : List (Str × Str × Str)) : Prop where
  root : fs1.get [] = some .dir
  parents : Parents fs1
  clear : ∀ k, k <+: D → ∀ b, fs1.get k ≠ some (.file b)
  period : ∀ p b, (47 : UInt8) ∉ p → fs1.get (D ++ [periodName p]) ≠ some (.file b)
  update : ∀ p, (47 : UInt8) ∉ p → fs1.get (D ++ [periodName p, go!"ClientUpdate.json"]) = (lastUpdate p saves).map .file
  crv : fs1.get (D ++ [go!"CRV.json"]) = (lastCrv saves).map .file
  other : ∀ q, ¬ D <+: q → ¬ q <+: D → fs1.get q = fs0.get q

theorem periodName_inj {a b : Str} (h : periodName a = periodName b) : a = b := List.append_cancel_left h

theorem Saved.step {S : OS} {filepath sid : Str} {D : Path} (hD : resolve S.cwd (monitorPaths filepath sid).dir = D) {fs0 fs1 : FS}
    {saves : List (Str × Str × Str)} (h : Saved D fs0 fs1 saves) (s : Str × Str × Str) (hs : (47 : UInt8) ∉ s.1) :
    Saved D fs0 (saveStorage S (monitorPaths filepath sid) fs1 s.1 s.2.1 s.2.2).1 (saves ++ [s]) := by
  obtain ⟨period, upd, cr⟩ := s
  simp only at hs ⊢
  have hsplit : ∀ k, k <+: D ++ [periodName period] → k <+: D ∨ k = D ++ [periodName period] := by
    intro k hk
    rcases List.prefix_concat_iff.1 hk with h | h
    · exact .inr h
    · exact .inl h
  obtain ⟨a1, a2, a3, a4⟩ := saveStorage_spec S filepath sid fs1 period upd cr hs h.parents h.root D hD
    (by
      intro k hk b
      rcases hsplit k hk with hk | rfl
      · exact h.clear k hk b
      · exact h.period _ b hs)
    (by rw [h.update _ hs]; cases lastUpdate period saves <;> simp)
    (by rw [h.crv]; cases lastCrv saves <;> simp)
  generalize (saveStorage S (monitorPaths filepath sid) fs1 period upd cr).1 = fs2 at a1 a2 a3 a4
  have hDp : D <+: D ++ [periodName period] := ⟨_, rfl⟩
  refine ⟨a3 _ List.nil_prefix, ?_, ?_, ?_, ?_, ?_, ?_⟩
  · intro p n hh
    -- the parent of a new node is one of the directories
    by_cases hu : p ++ [n] = D ++ [periodName period, go!"ClientUpdate.json"]
    · have : p = D ++ [periodName period] := by
        have e : D ++ [periodName period, go!"ClientUpdate.json"] = (D ++ [periodName period]) ++ [go!"ClientUpdate.json"] := by simp
        rw [e] at hu
        exact (List.append_inj' hu rfl).1
      rw [this]; exact a3 _ (List.prefix_refl _)
    · by_cases hc : p ++ [n] = D ++ [go!"CRV.json"]
      · rw [(List.append_inj' hc rfl).1]; exact a3 _ hDp
      · by_cases hp : p ++ [n] <+: D ++ [periodName period]
        · exact a3 _ ((List.prefix_append _ _).trans hp)
        · obtain ⟨v, hv⟩ := (GoMap.has_iff _ _).1 hh
          rw [a4 _ hu hc hp] at hv
          have hpd := h.parents p n ((GoMap.has_iff _ _).2 ⟨v, hv⟩)
          by_cases hpp : p <+: D ++ [periodName period]
          · exact a3 _ hpp
          · rw [a4 p ?_ ?_ hpp, hpd]
            · rintro rfl
              rw [h.update _ hs] at hpd
              cases hl : lastUpdate period saves <;> rw [hl] at hpd <;> simp at hpd
            · rintro rfl
              rw [h.crv] at hpd
              cases hl : lastCrv saves <;> rw [hl] at hpd <;> simp at hpd
  · intro k hk b
    rw [a3 k (hk.trans hDp)]; simp
  · intro p b hp
    by_cases hpp : p = period
    · subst hpp; rw [a3 _ (List.prefix_refl _)]; simp
    · rw [a4 _ (by simp) (by simp [periodName]) ?_]
      · exact h.period p b hp
      · rw [List.prefix_append_right_inj]
        intro hh
        have := List.cons_prefix_cons.1 hh
        exact hpp (periodName_inj this.1)
  · intro p hp
    by_cases hpp : p = period
    · subst hpp
      rw [a1]
      simp [lastUpdate]
    · rw [a4 _ ?_ (by simp) ?_, h.update p hp]
      · have : lastUpdate p (saves ++ [(period, upd, cr)]) = lastUpdate p saves := by
          simp [lastUpdate, List.filter_append, Ne.symm hpp]
        rw [this]
      · intro e
        have := List.append_cancel_left e
        simp only [List.cons.injEq, and_true] at this
        exact hpp (periodName_inj this)
      · rw [List.prefix_append_right_inj]
        intro hh
        have := hh.length_le; simp at this
  · rw [a2]; simp [lastCrv]
  · intro q q1 q2
    have hq : ∀ x, q ≠ D ++ x := by rintro x rfl; exact q1 ⟨x, rfl⟩
    rw [a4 q (hq _) (hq _) ?_]
    · exact h.other q q1 q2
    · intro hk
      rcases hsplit q hk with hk | hk
      · exact q2 hk
      · exact hq _ hk

theorem saved_clean {S : OS} (hS : S.Laws) {fs : FS} (hw : fs.WF) {s : Str} (hn : endsInName s = true)
    (hr : resolve S.cwd s ≠ []) (hclear : ∀ k, k <+: resolve S.cwd s → ∀ b, fs.get k ≠ some (.file b)) :
    Saved (resolve S.cwd s) fs (cleanUp S fs s) [] := by
  have hget : ∀ q, (cleanUp S fs s).get q = if resolve S.cwd s <+: q then none else fs.get q := by
    intro q
    unfold cleanUp
    cases hd : fs.get (resolve S.cwd s) with
    | none =>
      rw [C109_delete_other S fs s (by rw [hd]; simp)]
      split
      · rename_i hq
        obtain ⟨a, rfl⟩ := hq
        rw [← has_get]
        cases hh : fs.has (resolve S.cwd s ++ a) with
        | false => rfl
        | true =>
          have := Parents.prefixes hw.parent _ a hh
          rw [has_get.2 hd] at this; cases this
      · rfl
    | some v =>
      cases v with
      | dir => exact (C109_delete_removes_tree S hS fs hw s ((endsInName_iff s).1 hn) hr hd).2 q
      | file b => exact absurd hd (hclear _ (List.prefix_refl _) b)
  generalize resolve S.cwd s = D at *
  have hroot : ¬ D <+: [] := fun h => hr (List.prefix_nil.1 h)
  refine ⟨?_, ?_, ?_, ?_, ?_, ?_, ?_⟩
  · rw [hget, if_neg hroot, hw.root]
  · intro p n hh
    obtain ⟨v, hv⟩ := (GoMap.has_iff _ _).1 hh
    rw [hget] at hv
    split at hv
    · cases hv
    · rename_i hq
      rw [hget, if_neg (fun h => hq (h.trans (List.prefix_append _ _)))]
      exact hw.parent p n ((GoMap.has_iff _ _).2 ⟨v, hv⟩)
  · intro k hk b
    rw [hget]
    split
    · simp
    · exact hclear k hk b
  · intro p b _
    rw [hget, if_pos (List.prefix_append _ _)]; simp
  · intro p _
    rw [hget, if_pos (List.prefix_append _ _)]; rfl
  · rw [hget, if_pos (List.prefix_append _ _)]; rfl
  · intro q q1 _
    rw [hget, if_neg q1]

end FileTree

/-- Saves of a monitor in order: period, encoded update, encoded revocation vectors. -/
def saveAll (S : OS) (P : StoragePaths) (fs : FS) (saves : List (Str × Str × Str)) : FS :=
  saves.foldl (fun fs s => (saveStorage S P fs s.1 s.2.1 s.2.2).1) fs

/-- What holds of C110: if no file stands at the storage directory or above it, then after cleaning up and any number of saves
each period's file has the update last saved for it, no other period has a file, the vectors are the last ones, and everything
outside the directory is as before. Missing: the error when a file is in the way. -/
theorem C110_saves_are_stored_partial (S : OS) (hS : S.Laws) (fs : FS) (hw : fs.WF) (filepath sid : Str)
    (hn : endsInName (monitorPaths filepath sid).dir = true) (hr : resolve S.cwd (monitorPaths filepath sid).dir ≠ [])
    (hclear : ∀ k, k <+: resolve S.cwd (monitorPaths filepath sid).dir → ∀ b, fs.get k ≠ some (.file b))
    (saves : List (Str × Str × Str)) (hper : ∀ s ∈ saves, (47 : UInt8) ∉ s.1) :
    let P := monitorPaths filepath sid
    let fs' := saveAll S P (cleanUp S fs P.dir) saves
    (∀ period, (47 : UInt8) ∉ period → readByte S fs' (updateFile P period) = lastUpdate period saves) ∧
    readByte S fs' P.crv = lastCrv saves ∧
    ∀ q, ¬ resolve S.cwd P.dir <+: q → ¬ q <+: resolve S.cwd P.dir → fs'.get q = fs.get q := by
  have key : ∀ (l done : List (Str × Str × Str)) (fs1 : FS), (∀ s ∈ l, (47 : UInt8) ∉ s.1) →
      Saved (resolve S.cwd (monitorPaths filepath sid).dir) fs fs1 done →
      Saved (resolve S.cwd (monitorPaths filepath sid).dir) fs (saveAll S (monitorPaths filepath sid) fs1 l) (done ++ l) := by
    intro l
    induction l with
    | nil => intro done fs1 _ h; simpa [saveAll] using h
    | cons s t ih =>
      intro done fs1 hl h
      have := ih (done ++ [s]) _ (fun x hx => hl x (by simp [hx])) (h.step rfl s (hl s (by simp)))
      simpa [saveAll] using this
  have h := key saves [] _ hper (saved_clean hS hw hn hr hclear)
  rw [List.nil_append] at h
  refine ⟨?_, ?_, h.other⟩
  · intro period hp
    unfold readByte
    rw [monitorPaths_update _ _ _ hp, h.update _ hp]
    cases lastUpdate period saves <;> rfl
  · unfold readByte
    rw [monitorPaths_crv, h.crv]
    cases lastCrv saves <;> rfl

/-- C110 fails: with a file at the place of the storage directory nothing is stored, cleaning up does not help, and every save
returns nil. -/
theorem C110_violated_silent (S : OS) (fs : FS) (hw : fs.WF) (filepath sid : Str) (b : Str)
    (hfile : fs.get (resolve S.cwd (monitorPaths filepath sid).dir) = some (.file b)) (period update crv : Str)
    (hper : (47 : UInt8) ∉ period) :
    let P := monitorPaths filepath sid
    saveStorage S P (cleanUp S fs P.dir) period update crv = (fs, true) ∧
      readByte S fs (updateFile P period) = none ∧ readByte S fs P.crv = none := by
  have e1 := monitorPaths_period S.cwd filepath sid hper
  have e2 := monitorPaths_update S.cwd filepath sid hper
  have e3 := monitorPaths_crv S.cwd filepath sid
  generalize monitorPaths filepath sid = P at *
  generalize hD : resolve S.cwd P.dir = D at *
  simp only
  have hclean : cleanUp S fs P.dir = fs := by
    unfold cleanUp
    rw [C109_delete_other S fs P.dir (by rw [hD, hfile]; simp)]
  have hbelow : ∀ x l, fs.get (D ++ x :: l) = none := by
    intro x l
    rw [← has_get]
    cases hh : fs.has (D ++ x :: l) with
    | false => rfl
    | true =>
      have h1 : fs.has (D ++ [x]) = true := Parents.prefixes hw.parent _ l (by simpa using hh)
      have := hw.parent _ _ h1
      rw [hfile] at this; cases this
  have hmk : ∀ (l : List Str) (d : Path), D <+: d ++ l → ¬ D <+: d → (∀ k, k <+: D → k ≠ D → fs.get k = some .dir) →
      d <+: D → mkdirs fs d l = none := by
    intro l
    induction l with
    | nil => intro d h1 h2 _ _; exact absurd (by simpa using h1) h2
    | cons n t ih =>
      intro d h1 h2 h3 h4
      have hdn : d ++ [n] <+: D := by
        have hlen : d.length < D.length := by
          obtain ⟨a, ha⟩ := h4
          cases a with
          | nil => exact absurd (by rw [← ha]; simp) h2
          | cons x a => rw [← ha]; simp
        have hp : d ++ [n] <+: d ++ n :: t := ⟨t, by simp⟩
        exact List.prefix_of_prefix_length_le hp h1 (by simp; omega)
      unfold mkdirs
      by_cases he : d ++ [n] = D
      · rw [he, hfile]
      · rw [h3 _ hdn he]
        refine ih (d ++ [n]) (by simpa using h1) ?_ h3 hdn
        intro hh
        exact he (hdn.eq_of_length_le hh.length_le)
  have hdirs : ∀ k, k <+: D → k ≠ D → fs.get k = some .dir := by
    rintro k ⟨a, ha⟩ hne
    cases a with
    | nil => exact absurd (by simpa using ha) hne
    | cons x a =>
      refine hw.parent k x (Parents.prefixes hw.parent _ a ?_)
      have : k ++ [x] ++ a = D := by rw [← ha]; simp
      rw [this]
      exact (GoMap.has_iff _ _).2 ⟨_, hfile⟩
  have hDne : ¬ D <+: [] := by
    intro h
    have := List.prefix_nil.1 h
    subst this
    rw [hw.root] at hfile; cases hfile
  have c1 : createDir S fs (P.dir ++ go!"/Period_" ++ period) = fs := by
    unfold createDir
    simp only [e1, has_get.2 (hbelow _ []), hmk (D ++ [periodName period]) [] (List.prefix_append _ _) hDne hdirs List.nil_prefix]
    rfl
  have hput : ∀ s c, (∃ p, resolve S.cwd s = p ∧ fs.get p.dropLast ≠ some .dir) → put S fs s c = (fs, false) := by
    rintro s c ⟨p, rfl, hp⟩
    unfold put
    rw [if_neg]
    rintro ⟨_, h2, _⟩
    exact hp h2
  have hu : ∃ p, resolve S.cwd (updateFile P period) = p ∧ fs.get p.dropLast ≠ some .dir := by
    refine ⟨_, e2, ?_⟩
    have : (D ++ [periodName period, go!"ClientUpdate.json"]).dropLast = D ++ [periodName period] := by
      have : D ++ [periodName period, go!"ClientUpdate.json"] = (D ++ [periodName period]) ++ [go!"ClientUpdate.json"] := by simp
      rw [this, List.dropLast_concat]
    rw [this, hbelow _ []]; simp
  have hc : ∃ p, resolve S.cwd P.crv = p ∧ fs.get p.dropLast ≠ some .dir :=
    ⟨_, e3, by rw [List.dropLast_concat, hfile]; simp⟩
  refine ⟨?_, ?_, ?_⟩
  · have hus := hput (updateFile P period) [] hu
    have hcs := hput P.crv [] hc
    have nu : fs.has (resolve S.cwd (updateFile P period)) = false := by rw [e2]; exact has_get.2 (hbelow _ _)
    have nc : fs.has (resolve S.cwd P.crv) = false := by rw [e3]; exact has_get.2 (hbelow _ _)
    have c2 : createFile S fs (updateFile P period) = fs := by unfold createFile; rw [nu]; simp [hus]
    have c3 : (writeData S fs (updateFile P period) (some update)).1 = fs := by unfold writeData; simp [nu, hus]
    have c4 : (writeData S fs P.crv (some crv)).1 = fs := by unfold writeData; simp [nc, hcs]
    rw [hclean]
    show ((writeData S (writeData S (createFile S (createDir S fs (P.dir ++ go!"/Period_" ++ period)) (updateFile P period))
      (updateFile P period) (some update)).1 P.crv (some crv)).1, true) = _
    rw [c1, c2, c3, c4]
  · unfold readByte; rw [e2, hbelow _ _]
  · unfold readByte; rw [e3, hbelow _ _]

/-! ### Examples -/

namespace Ref

/-- An operating system that lists entries in the order of the table, working in the root. -/
def os : OS := ⟨[], fun fs p => fs.keys.filterMap fun q => if q ≠ [] ∧ q.dropLast = p then q.getLast? else none⟩

theorem os_laws : os.Laws := by
  have hf : ∀ (p q : Path) (n : Str), (if q ≠ [] ∧ q.dropLast = p then q.getLast? else none) = some n ↔ q = p ++ [n] := by
    intro p q n
    rcases List.eq_nil_or_concat q with rfl | ⟨r, x, rfl⟩
    · simp
    · simp only [List.concat_eq_append, List.dropLast_concat, List.getLast?_concat]
      by_cases h : r = p
      · subst h; simp
      · simp [h]
  constructor
  · intro fs p n
    show n ∈ fs.keys.filterMap _ ↔ _
    rw [List.mem_filterMap]
    constructor
    · rintro ⟨q, hq, h⟩
      rw [hf] at h
      rw [GoMap.has_iff, ← h]
      exact (GoMap.mem_keys_iff _ _).1 hq
    · intro h
      exact ⟨p ++ [n], (GoMap.mem_keys_iff _ _).2 ((GoMap.has_iff _ _).1 h), (hf _ _ _).2 rfl⟩
  · intro fs p
    refine List.Pairwise.filterMap _ ?_ fs.nodup
    intro a b hab x hx y hy hxy
    subst hxy
    exact hab (((hf _ _ _).1 hx).trans ((hf _ _ _).1 hy).symm)

/-- A disk with storage of an earlier run. -/
def disk1 : FS := ((((((GoMap.empty.set [] .dir).set [go!"data"] .dir).set [go!"data", go!"M1"] .dir).set
  [go!"data", go!"M1", go!"Period_01"] .dir).set [go!"data", go!"M1", go!"Period_01", go!"ClientUpdate.json"] (.file (go!"old"))).set
  [go!"data", go!"note"] (.file (go!"keep")))

theorem wf_of_keys {fs : FS} (h0 : fs.get [] = some .dir)
    (h1 : ∀ q ∈ fs.keys, q = [] ∨ (fs.get q.dropLast = some .dir ∧ ∀ n ∈ q.getLast?, n ≠ [] ∧ n ≠ go!"." ∧ n ≠ go!".." ∧ (47 : UInt8) ∉ n)) : fs.WF := by
  have key : ∀ p n, fs.has (p ++ [n]) = true → fs.get p = some .dir ∧ Name n := by
    intro p n h
    rcases h1 _ ((GoMap.mem_keys_iff _ _).2 ((GoMap.has_iff _ _).1 h)) with h2 | ⟨h2, h3⟩
    · simp at h2
    · rw [List.dropLast_concat] at h2
      exact ⟨h2, h3 n (by simp)⟩
  exact ⟨h0, fun p n h => (key p n h).1, fun p n h => (key p n h).2⟩

theorem disk1_wf : disk1.WF := wf_of_keys (by decide +kernel) (by decide +kernel)

/-- Removing the storage of the earlier run. -/
example : (deleteAll os disk1 (go!"data//M1/")).2 = true ∧ ∀ q, (deleteAll os disk1 (go!"data//M1/")).1.get q =
    if [go!"data", go!"M1"] <+: q then none else disk1.get q := by
  have h : resolve os.cwd (go!"data//M1/") = [go!"data", go!"M1"] := by decide +kernel
  have := C109_delete_removes_tree os os_laws disk1 disk1_wf (go!"data//M1/") ((endsInName_iff _).1 (by decide +kernel)) (by rw [h]; simp)
    (by decide +kernel)
  rwa [h] at this

/-- The same with a dot: the directory stays. -/
example : (deleteAll os disk1 (go!"data/M1/.")).2 = false ∧
    (deleteAll os disk1 (go!"data/M1/.")).1.get [go!"data", go!"M1"] = some .dir := by
  have h : resolve os.cwd (go!"data/M1/.") = [go!"data", go!"M1"] := by decide +kernel
  have := C109_delete_dot os os_laws disk1 disk1_wf (go!"data/M1/.") (by simp)
    (fun hn => absurd ((endsInName_iff _).2 hn) (by decide +kernel)) (by decide +kernel)
  rw [h] at this
  exact ⟨this.1, this.2.1⟩

/-- The saves of a new run. -/
def saves1 : List (Str × Str × Str) := [(go!"02", go!"a", go!"x"), (go!"03", go!"b", go!"y"), (go!"02", go!"c", go!"z")]

/-- The disk after a new run. -/
def disk2 : FS := saveAll os (monitorPaths (go!"data") (go!"M1")) (cleanUp os disk1 (monitorPaths (go!"data") (go!"M1")).dir) saves1

/-- The update of the earlier run is gone, period 02 has the second of its two updates. -/
example : readByte os disk2 (updateFile (monitorPaths (go!"data") (go!"M1")) (go!"01")) = none ∧
    readByte os disk2 (updateFile (monitorPaths (go!"data") (go!"M1")) (go!"02")) = some (go!"c") ∧
    readByte os disk2 (monitorPaths (go!"data") (go!"M1")).crv = some (go!"z") := by
  have hres : resolve os.cwd (monitorPaths (go!"data") (go!"M1")).dir = [go!"data", go!"M1"] := by decide +kernel
  have h := C110_saves_are_stored_partial os os_laws disk1 disk1_wf (go!"data") (go!"M1") (by decide +kernel)
    (by rw [hres]; simp)
    (by
      intro k hk b
      rw [hres] at hk
      have : k ∈ ([[], [go!"data"], [go!"data", go!"M1"]] : List Path) := by
        cases k with
        | nil => simp
        | cons x k =>
          obtain ⟨rfl, hk1⟩ := List.cons_prefix_cons.1 hk
          cases k with
          | nil => simp
          | cons y k =>
            obtain ⟨rfl, hk2⟩ := List.cons_prefix_cons.1 hk1
            rw [List.prefix_nil.1 hk2]; simp
      have hd : ∀ k ∈ ([[], [go!"data"], [go!"data", go!"M1"]] : List Path), disk1.get k = some .dir := by decide +kernel
      rw [hd k this]; simp)
    saves1 (by decide)
  exact ⟨h.1 (go!"01") (by decide), h.1 (go!"02") (by decide), h.2.1⟩

/-- A file in the way: the monitor's storage is `data/note`. -/
example : saveStorage os (monitorPaths (go!"data") (go!"note")) (cleanUp os disk1 (monitorPaths (go!"data") (go!"note")).dir)
    (go!"02") (go!"a") (go!"x") = (disk1, true) :=
  (C110_violated_silent os disk1 disk1_wf (go!"data") (go!"note") (go!"keep") (by decide +kernel) _ _ _ (by decide)).1

end Ref
end CTng
