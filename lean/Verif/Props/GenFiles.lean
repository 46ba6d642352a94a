import Verif.Model.GenFiles
import Verif.Props.FileTree
import Verif.Props.MapFiles
/-
C157: the programs find the deployment that was generated.
-/
set_option autoImplicit false

namespace CTng
namespace FileTree
open Wire

/-! ### Sequences of directories to be made and files to be written -/

/-- One directory made or one file written, if that is possible. -/
def stepAt (fs : FS) (o : Path × Node) : FS :=
  match o.2 with
  | .dir => if o.1 ≠ [] ∧ fs.get o.1.dropLast = some .dir ∧ fs.has o.1 = false then fs.set o.1 .dir else fs
  | .file c => if writable fs o.1 then fs.set o.1 (.file c) else fs

theorem mkdir_step (S : OS) (fs : FS) (s : Str) : mkdir S fs s = stepAt fs (resolve S.cwd s, .dir) := rfl

theorem put_step (S : OS) (fs : FS) (s c : Str) : (put S fs s c).1 = stepAt fs (resolve S.cwd s, .file c) := by
  show (if writable fs (resolve S.cwd s) then (fs.set (resolve S.cwd s) (.file c), true) else (fs, false)).1 =
    if writable fs (resolve S.cwd s) then fs.set (resolve S.cwd s) (.file c) else fs
  split <;> rfl

/-- What is there is of the kind that is to be there. -/
def Fits (fs : FS) (o : Path × Node) : Prop :=
  match o.2 with
  | .dir => ∀ b, fs.get o.1 ≠ some (.file b)
  | .file _ => fs.get o.1 ≠ some .dir

theorem dropLast_ne {p : Path} (h : p ≠ []) : p.dropLast ≠ p := by
  intro e
  have := congrArg List.length e
  rw [List.length_dropLast] at this
  have : p.length ≠ 0 := fun h0 => h (List.length_eq_zero_iff.1 h0)
  omega

theorem stepAt_done {fs : FS} {o : Path × Node} (hk : Fits fs o) (hne : o.1 ≠ []) (hp : fs.get o.1.dropLast = some .dir) :
    ∀ q, (stepAt fs o).get q = if q = o.1 then some o.2 else fs.get q := by
  obtain ⟨p, n⟩ := o
  intro q
  cases n with
  | dir =>
    simp only [stepAt]
    split
    · rw [GoMap.get_set]
    · next h =>
      split
      · next e =>
        subst e
        have hh : fs.has q = true := by
          cases hh : fs.has q with
          | true => rfl
          | false => exact absurd ⟨hne, hp, hh⟩ h
        cases hg : fs.get q with
        | none => rw [has_get.2 hg] at hh; cases hh
        | some x =>
          cases x with
          | dir => rfl
          | file b => exact absurd hg (hk b)
      · rfl
  | file c =>
    simp only [stepAt]
    rw [if_pos ⟨hne, hp, hk⟩, GoMap.get_set]

/-- If every parent is there or comes earlier, and nothing of the wrong kind is in the way, everything is made and nothing else
changes. -/
theorem steps_get (ops : List (Path × Node)) : ∀ (fs : FS), (∀ o ∈ ops, Fits fs o) →
    (∀ o ∈ ops, ∀ o' ∈ ops, o.1 = o'.1 → o.2 = o'.2) →
    (∀ pre o post, ops = pre ++ o :: post → o.1 ≠ [] ∧ (fs.get o.1.dropLast = some .dir ∨ (o.1.dropLast, Node.dir) ∈ pre)) →
    (∀ o ∈ ops, (ops.foldl stepAt fs).get o.1 = some o.2) ∧
      ∀ q, (∀ o ∈ ops, o.1 ≠ q) → (ops.foldl stepAt fs).get q = fs.get q := by
  induction ops with
  | nil => intro fs _ _ _; exact ⟨by simp, fun _ _ => rfl⟩
  | cons o t ih =>
    intro fs hk hf hp
    obtain ⟨hne, hpar⟩ := hp [] o t rfl
    have hpar : fs.get o.1.dropLast = some .dir := hpar.resolve_right (by simp)
    have hs := stepAt_done (hk o (by simp)) hne hpar
    obtain ⟨a, b⟩ := ih (stepAt fs o) (by
      intro o' ho'
      have hk' := hk o' (by simp [ho'])
      have he := hf o (by simp) o' (by simp [ho'])
      unfold Fits
      rw [hs]
      by_cases e : o'.1 = o.1
      · rw [if_pos e, ← he e.symm]
        cases o.2 <;> simp
      · rw [if_neg e]; exact hk') (fun o1 h1 o2 h2 => hf o1 (by simp [h1]) o2 (by simp [h2])) (by
      intro pre o' post e
      obtain ⟨h1, h2⟩ := hp (o :: pre) o' post (by rw [e]; rfl)
      refine ⟨h1, ?_⟩
      rw [hs]
      rcases h2 with h2 | h2
      · left
        split
        · next e' =>
          have := hk o (by simp)
          unfold Fits at this
          cases hn : o.2 with
          | dir => rfl
          | file c => rw [hn] at this; rw [← e'] at this; exact absurd h2 this
        · exact h2
      · rcases List.mem_cons.1 h2 with h2 | h2
        · left
          rw [← h2]; simp
        · exact .inr h2)
    simp only [List.foldl_cons]
    constructor
    · intro o' ho'
      rcases List.mem_cons.1 ho' with rfl | ho'
      · by_cases hin : ∃ x ∈ t, x.1 = o'.1
        · obtain ⟨x, hx, e⟩ := hin
          rw [← e, a x hx, hf x (by simp [hx]) o' (by simp) e]
        · rw [b o'.1 (fun x hx e => hin ⟨x, hx, e⟩), hs, if_pos rfl]
      · exact a o' ho'
    · intro q hq
      rw [b q (fun x hx => hq x (by simp [hx])), hs, if_neg (fun e => hq o (by simp) e.symm)]

/-- If no parent is a directory nothing happens. -/
theorem steps_nothing (ops : List (Path × Node)) (fs : FS) (h : ∀ o ∈ ops, fs.get o.1.dropLast ≠ some .dir) :
    ops.foldl stepAt fs = fs := by
  induction ops with
  | nil => rfl
  | cons o t ih =>
    have h0 := h o (by simp)
    have : stepAt fs o = fs := by
      unfold stepAt
      split
      · rw [if_neg (fun h => h0 h.2.1)]
      · rw [if_neg (fun h => h0 h.2.1)]
    rw [List.foldl_cons, this]
    exact ih (fun o ho => h o (by simp [ho]))

/-! ### The generator as such a sequence -/

/-- The names of the three files of a process. -/
def pubFile (r : Kind) : Str := r.entity ++ go!"_public_config.json"
def privFile (r : Kind) : Str := r.entity ++ go!"_private_config.json"
def cryptoFile (r : Kind) : Str := r.entity ++ go!"_crypto_config.json"

theorem name_dir (r : Kind) : Name r.dir := by cases r <;> (refine ⟨?_, ?_, ?_, ?_⟩ <;> decide)
theorem name_files (r : Kind) : Name (pubFile r) ∧ Name (privFile r) ∧ Name (cryptoFile r) := by
  cases r <;> (refine ⟨⟨?_, ?_, ?_, ?_⟩, ⟨?_, ?_, ?_, ?_⟩, ⟨?_, ?_, ?_, ?_⟩⟩ <;> decide)

theorem name_itoa (n : Nat) : Name (itoa n) := by
  have hd := itoa_digit n
  refine ⟨Json.itoa_ne_nil n, ?_, ?_, ?_⟩
  · intro e; have := hd 46 (by rw [e]; decide); revert this; decide
  · intro e; have := hd 46 (by rw [e]; decide); revert this; decide
  · intro e; have := hd 47 e; revert this; decide

/-- The operations on the files of the process number `i + 1` below the directory `B` of its kind. -/
def opsOf (B : Path) (r : Kind) (i : Nat) (t : Texts) : List (Path × Node) :=
  [(B ++ [itoa (i + 1)], .dir), (B ++ [itoa (i + 1), pubFile r], .file (t.pub.getD [])),
    (B ++ [itoa (i + 1), privFile r], .file (t.priv.getD [])), (B ++ [itoa (i + 1), cryptoFile r], .file (t.crypto.getD []))]

def kindOps (B : Path) (r : Kind) : Nat → List Texts → List (Path × Node)
  | _, [] => []
  | i, t :: rest => opsOf B r i t ++ kindOps B r (i + 1) rest

section
variable (S : OS) (cfg : Str)

theorem base_ne (r : Kind) : cfg ++ r.dir ≠ [] := by
  intro e
  exact (name_dir r).1 (List.append_eq_nil_iff.1 e).2

theorem file_path (r : Kind) (n f : Str) (hn : Name n) (hf : Name f) :
    resolve S.cwd (cfg ++ r.dir ++ go!"/" ++ n ++ go!"/" ++ f) = resolve S.cwd (cfg ++ r.dir) ++ [n, f] := by
  rw [resolve_name (by simp) hf, resolve_name (base_ne cfg r) hn]
  simp

theorem writeKind_ops (r : Kind) (l : List Texts) : ∀ (fs : FS) (i : Nat),
    writeKind S cfg r fs i l = (kindOps (resolve S.cwd (cfg ++ r.dir)) r i l).foldl stepAt fs := by
  induction l with
  | nil => intro fs i; rfl
  | cons t rest ih =>
    intro fs i
    obtain ⟨n1, n2, n3⟩ := name_files r
    have e : ∀ s : Str, cfg ++ r.dir ++ go!"/" ++ itoa (i + 1) ++ go!"/" ++ r.entity ++ s =
        cfg ++ r.dir ++ go!"/" ++ itoa (i + 1) ++ go!"/" ++ (r.entity ++ s) := by intro s; simp [List.append_assoc]
    rw [writeKind, ih, kindOps, List.foldl_append]
    congr 1
    unfold writeConfigs
    rw [put_step, put_step, put_step, mkdir_step, e, e, e]
    have f1 := file_path S cfg r _ _ (name_itoa (i + 1)) n1
    have f2 := file_path S cfg r _ _ (name_itoa (i + 1)) n2
    have f3 := file_path S cfg r _ _ (name_itoa (i + 1)) n3
    unfold pubFile at f1
    unfold privFile at f2
    unfold cryptoFile at f3
    rw [f1, f2, f3, resolve_name (base_ne cfg r) (name_itoa (i + 1))]
    rfl

theorem dir_path (cwd : Path) (r : Kind) : resolve cwd r.dir = cwd ++ [r.dir] := by
  have h := name_dir r
  have hh : r.dir.head? ≠ some 47 := by cases r <;> decide
  unfold resolve
  rw [splitSlash_single h.2.2.2, if_neg hh]
  simp only [List.foldl_cons, List.foldl_nil, walk]
  rw [if_neg (by simp [h.1, h.2.1]), if_neg h.2.2.1]

/-- All operations of the generator. -/
def allOps (d : Disk) : List (Path × Node) :=
  [(S.cwd ++ [Kind.ca.dir], .dir), (S.cwd ++ [Kind.logger.dir], .dir)] ++
  kindOps (resolve S.cwd (cfg ++ Kind.ca.dir)) .ca 0 d.cas ++ kindOps (resolve S.cwd (cfg ++ Kind.logger.dir)) .logger 0 d.loggers ++
  [(S.cwd ++ [Kind.monitor.dir], .dir)] ++ kindOps (resolve S.cwd (cfg ++ Kind.monitor.dir)) .monitor 0 d.monitors ++
  [(S.cwd ++ [Kind.gossiper.dir], .dir)] ++ kindOps (resolve S.cwd (cfg ++ Kind.gossiper.dir)) .gossiper 0 d.gossipers

theorem generateTree_ops (fs : FS) (d : Disk) : generateTree S cfg fs d = (allOps S cfg d).foldl stepAt fs := by
  unfold generateTree allOps
  simp only [writeKind_ops, mkdir_step, dir_path, List.foldl_append, List.foldl_cons, List.foldl_nil]

theorem mem_kindOps {B : Path} {r : Kind} {o : Path × Node} (l : List Texts) : ∀ (i : Nat), o ∈ kindOps B r i l ↔
    ∃ j t, l[j]? = some t ∧ o ∈ opsOf B r (i + j) t := by
  induction l with
  | nil => intro i; simp [kindOps]
  | cons t rest ih =>
    intro i
    rw [kindOps, List.mem_append, ih]
    constructor
    · rintro (h | ⟨j, u, hj, hu⟩)
      · exact ⟨0, t, rfl, h⟩
      · exact ⟨j + 1, u, by simpa using hj, by rwa [show i + (j + 1) = i + 1 + j by omega]⟩
    · rintro ⟨j, u, hj, hu⟩
      cases j with
      | zero => left; simp at hj; subst hj; exact hu
      | succ j => right; exact ⟨j, u, by simpa using hj, by rwa [show i + 1 + j = i + (j + 1) by omega]⟩

theorem mem_allOps {d : Disk} {o : Path × Node} : o ∈ allOps S cfg d ↔ (∃ r : Kind, o = (S.cwd ++ [r.dir], .dir)) ∨
    ∃ (r : Kind) (i : Nat) (t : Texts), (r.texts d)[i]? = some t ∧ o ∈ opsOf (resolve S.cwd (cfg ++ r.dir)) r i t := by
  unfold allOps
  simp only [List.mem_append, List.mem_cons, List.not_mem_nil, or_false, mem_kindOps, Nat.zero_add]
  constructor
  · rintro (((((((h | h) | h) | h) | h) | h) | h) | h)
    · exact .inl ⟨.ca, h⟩
    · exact .inl ⟨.logger, h⟩
    · obtain ⟨i, t, a, b⟩ := h; exact .inr ⟨.ca, i, t, a, b⟩
    · obtain ⟨i, t, a, b⟩ := h; exact .inr ⟨.logger, i, t, a, b⟩
    · exact .inl ⟨.monitor, h⟩
    · obtain ⟨i, t, a, b⟩ := h; exact .inr ⟨.monitor, i, t, a, b⟩
    · exact .inl ⟨.gossiper, h⟩
    · obtain ⟨i, t, a, b⟩ := h; exact .inr ⟨.gossiper, i, t, a, b⟩
  · rintro (⟨r, h⟩ | ⟨r, i, t, a, b⟩)
    · cases r <;> simp [h]
    · cases r
      · exact .inl (.inl (.inl (.inl (.inl (.inr ⟨i, t, a, b⟩)))))
      · exact .inl (.inl (.inl (.inl (.inr ⟨i, t, a, b⟩))))
      · exact .inl (.inl (.inr ⟨i, t, a, b⟩))
      · exact .inr ⟨i, t, a, b⟩

/-! ### The order of the operations -/

/-- Every parent is a directory or was made earlier. -/
def InOrder (fs : FS) : List (Path × Node) → List (Path × Node) → Prop
  | _, [] => True
  | seen, o :: t => o.1 ≠ [] ∧ (fs.get o.1.dropLast = some .dir ∨ (o.1.dropLast, Node.dir) ∈ seen) ∧ InOrder fs (seen ++ [o]) t

theorem inOrder_append {fs : FS} (a b : List (Path × Node)) : ∀ seen, InOrder fs seen (a ++ b) ↔
    InOrder fs seen a ∧ InOrder fs (seen ++ a) b := by
  induction a with
  | nil => intro seen; simp [InOrder]
  | cons o t ih =>
    intro seen
    simp only [List.cons_append, InOrder, ih, and_assoc, List.append_assoc, List.nil_append]

theorem inOrder_split {fs : FS} (pre : List (Path × Node)) (o : Path × Node) (post : List (Path × Node))
    (h : InOrder fs [] (pre ++ o :: post)) :
    o.1 ≠ [] ∧ (fs.get o.1.dropLast = some .dir ∨ (o.1.dropLast, Node.dir) ∈ pre) := by
  have := ((inOrder_append pre (o :: post) []).1 h).2
  rw [List.nil_append] at this
  exact ⟨this.1, this.2.1⟩

theorem dropLast_two (B : Path) (a b : Str) : (B ++ [a, b]).dropLast = B ++ [a] := by
  rw [List.dropLast_append_of_ne_nil (by simp)]; rfl

theorem inOrder_kind {fs : FS} {B : Path} {k : Kind} (l : List Texts) : ∀ (i : Nat) (seen : List (Path × Node)),
    (B, Node.dir) ∈ seen → InOrder fs seen (kindOps B k i l) := by
  induction l with
  | nil => intro i seen _; trivial
  | cons t rest ih =>
    intro i seen hB
    rw [kindOps, inOrder_append]
    refine ⟨?_, ih (i + 1) _ (by simp [hB])⟩
    unfold opsOf
    simp only [InOrder, List.dropLast_concat, dropLast_two]
    refine ⟨by simp, .inr hB, by simp, .inr (by simp), by simp, .inr (by simp), by simp, .inr (by simp), trivial⟩

theorem inOrder_all {fs : FS} (hcwd : fs.get S.cwd = some .dir) (d : Disk) : InOrder fs [] (allOps S [] d) := by
  have hd : ∀ (k : Kind) seen, InOrder fs seen [(S.cwd ++ [k.dir], .dir)] := by
    intro k seen
    refine ⟨by simp, .inl ?_, trivial⟩
    rw [List.dropLast_concat]
    exact hcwd
  unfold allOps
  simp only [List.nil_append, dir_path]
  simp only [inOrder_append]
  refine ⟨⟨⟨⟨⟨⟨?_, ?_⟩, ?_⟩, hd .monitor _⟩, ?_⟩, hd .gossiper _⟩, ?_⟩
  · refine ⟨by simp, .inl ?_, by simp, .inl ?_, trivial⟩ <;> (rw [List.dropLast_concat]; exact hcwd)
  all_goals
    apply inOrder_kind
    simp

/-- No file is where a directory is to be and no directory where a file is to be. -/
structure NothingInTheWay (S : OS) (fs : FS) (d : Disk) : Prop where
  cwd : fs.get S.cwd = some .dir
  dirs : ∀ (k : Kind) b, fs.get (S.cwd ++ [k.dir]) ≠ some (.file b)
  numbers : ∀ (k : Kind) (i : Nat), i < (k.texts d).length → ∀ b, fs.get (S.cwd ++ [k.dir, itoa (i + 1)]) ≠ some (.file b)
  files : ∀ (k : Kind) (i : Nat), i < (k.texts d).length → ∀ f ∈ [pubFile k, privFile k, cryptoFile k],
    fs.get (S.cwd ++ [k.dir, itoa (i + 1), f]) ≠ some .dir

theorem kind_dir_inj {k k' : Kind} (h : k.dir = k'.dir) : k = k' := by
  revert h; cases k <;> cases k' <;> decide

theorem files_differ (k : Kind) : pubFile k ≠ privFile k ∧ pubFile k ≠ cryptoFile k ∧ privFile k ≠ cryptoFile k := by
  cases k <;> decide

theorem generated_get {fs : FS} {d : Disk} (hn : NothingInTheWay S fs d) :
    (∀ o ∈ allOps S [] d, (generateTree S [] fs d).get o.1 = some o.2) ∧
    ∀ q, (∀ o ∈ allOps S [] d, o.1 ≠ q) → (generateTree S [] fs d).get q = fs.get q := by
  rw [generateTree_ops]
  refine steps_get _ fs ?_ ?_ ?_
  · intro o ho
    rcases (mem_allOps S [] (d := d)).1 ho with ⟨k, rfl⟩ | ⟨k, i, t, hi, ho⟩
    · exact hn.dirs k
    · have hlt : i < (k.texts d).length := (List.getElem?_eq_some_iff.1 hi).1
      rw [List.nil_append, dir_path] at ho
      simp only [opsOf, List.append_assoc, List.singleton_append, List.mem_cons, List.not_mem_nil, or_false] at ho
      rcases ho with rfl | rfl | rfl | rfl
      · exact hn.numbers k i hlt
      · exact hn.files k i hlt _ (by simp)
      · exact hn.files k i hlt _ (by simp)
      · exact hn.files k i hlt _ (by simp)
  · intro o ho o' ho' e
    rcases (mem_allOps S [] (d := d)).1 ho with ⟨k, rfl⟩ | ⟨k, i, t, hi, ho⟩ <;>
      rcases (mem_allOps S [] (d := d)).1 ho' with ⟨k', rfl⟩ | ⟨k', i', t', hi', ho'⟩
    · rfl
    · rw [List.nil_append, dir_path] at ho'
      simp only [opsOf, List.append_assoc, List.singleton_append, List.mem_cons, List.not_mem_nil, or_false] at ho'
      rcases ho' with rfl | rfl | rfl | rfl <;> simp at e
    · rw [List.nil_append, dir_path] at ho
      simp only [opsOf, List.append_assoc, List.singleton_append, List.mem_cons, List.not_mem_nil, or_false] at ho
      rcases ho with rfl | rfl | rfl | rfl <;> simp at e
    · rw [List.nil_append, dir_path] at ho ho'
      simp only [opsOf, List.append_assoc, List.singleton_append, List.mem_cons, List.not_mem_nil, or_false] at ho ho'
      have key : ∀ a b : Str, k.dir = k'.dir → itoa (i + 1) = itoa (i' + 1) → k = k' ∧ i = i' ∧ t = t' := by
        intro _ _ hk hj
        have hk := kind_dir_inj hk
        subst hk
        have := itoa_inj hj
        have hj : i = i' := by omega
        subst hj
        rw [hi] at hi'
        exact ⟨rfl, rfl, Option.some.inj hi'⟩
      obtain ⟨d1, d2, d3⟩ := files_differ k
      rcases ho with rfl | rfl | rfl | rfl <;> rcases ho' with rfl | rfl | rfl | rfl <;>
        simp only [List.append_cancel_left_eq, List.cons.injEq, and_true, reduceCtorEq, and_false] at e
      · rfl
      all_goals
        obtain ⟨e1, e2, e3⟩ := e
        obtain ⟨rfl, rfl, rfl⟩ := key [] [] e1 e2
        first
          | rfl
          | exact absurd e3 (by assumption)
          | exact absurd e3.symm (by assumption)
  · exact fun pre o post e => inOrder_split pre o post (e ▸ inOrder_all S hn.cwd d)

/-! ### C157 -/

theorem resolve_up (cwd : Path) (sub s : Str) (h : s.head? ≠ some 47) :
    resolve (cwd ++ [sub]) (go!"../" ++ s) = resolve cwd s := by
  have e : go!"../" ++ s = go!".." ++ 47 :: s := by simp
  rw [e]
  unfold resolve
  rw [splitSlash_append, if_neg h, if_neg (by simp), List.foldl_append]
  congr 1
  show walk (cwd ++ [sub]) (go!"..") = cwd
  rw [walk, if_neg (by decide), if_pos rfl, List.dropLast_concat]

/-- The files found below the directory of a kind. -/
theorem openConfigs_at (fs : FS) (k : Kind) (n : Str) (hn : Name n) (sub : Str) :
    (∀ S' : OS, S'.cwd = S.cwd → ∀ a b c, fs.get (S.cwd ++ [k.dir, n, pubFile k]) = some (.file a) →
      fs.get (S.cwd ++ [k.dir, n, privFile k]) = some (.file b) → fs.get (S.cwd ++ [k.dir, n, cryptoFile k]) = some (.file c) →
      openConfigs S' fs [] k n = ⟨some a, some b, some c⟩) ∧
    ∀ S' : OS, S'.cwd = S.cwd ++ [sub] → openConfigs S' fs (go!"../") k n = openConfigs S fs [] k n := by
  obtain ⟨n1, n2, n3⟩ := name_files k
  have e : ∀ (pre s : Str), pre ++ k.dir ++ go!"/" ++ n ++ go!"/" ++ k.entity ++ s =
      pre ++ k.dir ++ go!"/" ++ n ++ go!"/" ++ (k.entity ++ s) := by intro pre s; simp [List.append_assoc]
  have hp : ∀ (cwd : Path) (f : Str), Name f → resolve cwd ([] ++ k.dir ++ go!"/" ++ n ++ go!"/" ++ f) = cwd ++ [k.dir, n, f] := by
    intro cwd f hf
    have := file_path ⟨cwd, S.ls⟩ [] k n f hn hf
    rw [this, List.nil_append, dir_path]
    simp
  constructor
  · intro S' hS a b c ha hb hc
    unfold openConfigs readByte
    simp only [e]
    have h1 := hp S'.cwd _ n1
    have h2 := hp S'.cwd _ n2
    have h3 := hp S'.cwd _ n3
    unfold pubFile at h1 ha
    unfold privFile at h2 hb
    unfold cryptoFile at h3 hc
    rw [h1, h2, h3, hS, ha, hb, hc]
  · intro S' hS
    have hu : ∀ f, resolve S'.cwd (go!"../" ++ k.dir ++ go!"/" ++ n ++ go!"/" ++ f) =
        resolve S.cwd ([] ++ k.dir ++ go!"/" ++ n ++ go!"/" ++ f) := by
      intro f
      rw [hS, ← resolve_up S.cwd sub ([] ++ k.dir ++ go!"/" ++ n ++ go!"/" ++ f) (by cases k <;> simp [Kind.dir])]
      simp [List.append_assoc]
    unfold openConfigs readByte
    simp only [e, hu]

/-- The files of a process could all be encoded. -/
def Encoded (t : Texts) : Prop := ∃ a b c, t = ⟨some a, some b, some c⟩

/-- C157, what holds: if Generateall is run with an empty `config_path` in a directory where nothing is in the way of what it
writes, every process of the deployment is found, with exactly its files, both from this directory (`InitializeOneEntity`,
`Map_all`) and from every directory in it (the programs of tests/networktests), also if other configurations were there before.
Nothing outside the four directories is changed. Missing: other values of `config_path`. -/
theorem C157_found_partial (fs : FS) (d : Disk) (hn : NothingInTheWay S fs d) :
    (∀ (k : Kind) (i : Nat) (t : Texts), (k.texts d)[i]? = some t → Encoded t →
      openConfigs S (generateTree S [] fs d) [] k (itoa (i + 1)) = t ∧
      ∀ (S' : OS) (sub : Str), S'.cwd = S.cwd ++ [sub] →
        openConfigs S' (generateTree S [] fs d) (go!"../") k (itoa (i + 1)) = t) ∧
    ∀ p : Path, (∀ k : Kind, ¬ S.cwd ++ [k.dir] <+: p) → (generateTree S [] fs d).get p = fs.get p := by
  obtain ⟨hg, hf⟩ := generated_get S hn
  constructor
  · rintro k i t hi ⟨a, b, c, rfl⟩
    have hops : ∀ o ∈ opsOf (resolve S.cwd ([] ++ k.dir)) k i ⟨some a, some b, some c⟩,
        (generateTree S [] fs d).get o.1 = some o.2 := fun o ho => hg o ((mem_allOps S []).2 (.inr ⟨k, i, _, hi, ho⟩))
    rw [List.nil_append, dir_path] at hops
    simp only [opsOf, List.append_assoc, List.singleton_append, List.mem_cons, List.not_mem_nil, or_false, forall_eq_or_imp,
      forall_eq, Option.getD_some] at hops
    obtain ⟨_, h1, h2, h3⟩ := hops
    have h0 := (openConfigs_at S (generateTree S [] fs d) k _ (name_itoa (i + 1)) []).1 S rfl a b c h1 h2 h3
    refine ⟨h0, ?_⟩
    intro S' sub hS
    rw [(openConfigs_at S (generateTree S [] fs d) k _ (name_itoa (i + 1)) sub).2 S' hS, h0]
  · intro p hp
    apply hf
    intro o ho e
    rcases (mem_allOps S [] (d := d)).1 ho with ⟨k, rfl⟩ | ⟨k, i, t, _, ho⟩
    · exact hp k (by rw [← e]; exact List.prefix_rfl)
    · rw [List.nil_append, dir_path] at ho
      simp only [opsOf, List.append_assoc, List.singleton_append, List.mem_cons, List.not_mem_nil, or_false] at ho
      apply hp k
      have hpre : ∀ u : Path, S.cwd ++ [k.dir] <+: S.cwd ++ k.dir :: u := fun u => ⟨u, by simp⟩
      rcases ho with rfl | rfl | rfl | rfl <;> (rw [← e]; exact hpre _)

theorem op_kind {d : Disk} {o : Path × Node} (ho : o ∈ allOps S [] d) :
    (o.2 = .dir ∧ o.1.length ≤ S.cwd.length + 2) ∨ ((∃ c, o.2 = .file c) ∧ o.1.length = S.cwd.length + 3) := by
  rcases (mem_allOps S []).1 ho with ⟨k, rfl⟩ | ⟨k, i, t, _, ho⟩
  · left; simp
  · rw [List.nil_append, dir_path] at ho
    simp only [opsOf, List.append_assoc, List.singleton_append, List.mem_cons, List.not_mem_nil, or_false] at ho
    rcases ho with rfl | rfl | rfl | rfl
    · left; simp
    all_goals right; simp

/-- A deployment is not in the way of the next one. -/
theorem NothingInTheWay.again {fs : FS} {old new : Disk} (h : NothingInTheWay S fs old) (h' : NothingInTheWay S fs new) :
    NothingInTheWay S (generateTree S [] fs old) new := by
  obtain ⟨hg, hf⟩ := generated_get S h
  have cases' : ∀ q, (generateTree S [] fs old).get q = fs.get q ∨
      ∃ o ∈ allOps S [] old, o.1 = q ∧ (generateTree S [] fs old).get q = some o.2 := by
    intro q
    by_cases hex : ∃ o ∈ allOps S [] old, o.1 = q
    · obtain ⟨o, ho, rfl⟩ := hex
      exact .inr ⟨o, ho, rfl, hg o ho⟩
    · exact .inl (hf q (fun o ho e => hex ⟨o, ho, e⟩))
  have short : ∀ q b, q.length ≤ S.cwd.length + 2 → (∀ b, fs.get q ≠ some (.file b)) →
      (generateTree S [] fs old).get q ≠ some (.file b) := by
    intro q b hl hq e
    rcases cases' q with h1 | ⟨o, ho, rfl, h1⟩
    · rw [h1] at e; exact hq b e
    · rw [h1] at e
      rcases op_kind S ho with h2 | h2
      · rw [h2.1] at e; cases e
      · omega
  refine ⟨?_, fun k b => short _ b (by simp) (h'.dirs k), fun k i hi b => short _ b (by simp) (h'.numbers k i hi), ?_⟩
  · rcases cases' S.cwd with h1 | ⟨o, ho, e, h1⟩
    · rw [h1]; exact h.cwd
    · rcases op_kind S ho with h2 | h2
      · rw [h1, h2.1]
      · rw [e] at h2; omega
  · intro k i hi f hfm e
    rcases cases' (S.cwd ++ [k.dir, itoa (i + 1), f]) with h1 | ⟨o, ho, e', h1⟩
    · rw [h1] at e; exact h'.files k i hi f hfm e
    · rcases op_kind S ho with h2 | ⟨⟨c, h2⟩, _⟩
      · rw [e'] at h2; simp at h2
      · rw [h1, h2] at e; cases e

/-- C157 is false in a directory that held a larger deployment: its processes beyond those of the new one are still found there,
with the files and so the keys of the old one, beside those of the new one. -/
theorem C157_violated_leftover (fs : FS) (old new : Disk) (hn : NothingInTheWay S fs old)
    (hnw : NothingInTheWay S fs new) (k : Kind) (i : Nat) (t : Texts) (hi : (k.texts old)[i]? = some t)
    (ht : Encoded t) (hnew : (k.texts new).length ≤ i) :
    openConfigs S (generateTree S [] (generateTree S [] fs old) new) [] k (itoa (i + 1)) = t ∧
    ∀ (k' : Kind) (j : Nat) (u : Texts), (k'.texts new)[j]? = some u → Encoded u →
      openConfigs S (generateTree S [] (generateTree S [] fs old) new) [] k' (itoa (j + 1)) = u := by
  refine ⟨?_, fun k' j u hj hu =>
    ((C157_found_partial S _ new (NothingInTheWay.again S hn hnw)).1 k' j u hj hu).1⟩
  obtain ⟨a, b, c, rfl⟩ := ht
  have hn' := NothingInTheWay.again S hn hnw
  obtain ⟨hg, _⟩ := generated_get S hn
  obtain ⟨_, hf⟩ := generated_get S hn'
  have hops : ∀ o ∈ opsOf (resolve S.cwd ([] ++ k.dir)) k i ⟨some a, some b, some c⟩,
      (generateTree S [] fs old).get o.1 = some o.2 := fun o ho => hg o ((mem_allOps S []).2 (.inr ⟨k, i, _, hi, ho⟩))
  rw [List.nil_append, dir_path] at hops
  simp only [opsOf, List.append_assoc, List.singleton_append, List.mem_cons, List.not_mem_nil, or_false, forall_eq_or_imp,
    forall_eq, Option.getD_some] at hops
  obtain ⟨_, h1, h2, h3⟩ := hops
  have hkeep : ∀ f, (generateTree S [] (generateTree S [] fs old) new).get (S.cwd ++ [k.dir, itoa (i + 1), f]) =
      (generateTree S [] fs old).get (S.cwd ++ [k.dir, itoa (i + 1), f]) := by
    intro f
    apply hf
    intro o ho e
    rcases (mem_allOps S [] (d := new)).1 ho with ⟨k', rfl⟩ | ⟨k', i', t', hi', ho⟩
    · simp at e
    · have hlt : i' < (k'.texts new).length := (List.getElem?_eq_some_iff.1 hi').1
      rw [List.nil_append, dir_path] at ho
      simp only [opsOf, List.append_assoc, List.singleton_append, List.mem_cons, List.not_mem_nil, or_false] at ho
      rcases ho with rfl | rfl | rfl | rfl <;>
        simp only [List.append_cancel_left_eq, List.cons.injEq, reduceCtorEq, and_false, and_true] at e
      all_goals
        obtain ⟨e1, e2, _⟩ := e
        have := kind_dir_inj e1
        subst this
        have := itoa_inj e2
        omega
  exact (openConfigs_at S _ k _ (name_itoa (i + 1)) []).1 S rfl a b c (by rw [hkeep]; exact h1) (by rw [hkeep]; exact h2)
    (by rw [hkeep]; exact h3)

/-- C157 is false for every `config_path` that leads somewhere else: the four directories are made in the working directory, the
configurations are to go below directories of the same names under `config_path`, and if these do not exist no file is written
anywhere and no error is reported. -/
theorem C157_violated_config_path (fs : FS) (hw : fs.WF) (d : Disk) (hmiss : ∀ k : Kind, fs.has (resolve S.cwd (cfg ++ k.dir)) = false)
    (helse : ∀ k k' : Kind, resolve S.cwd (cfg ++ k.dir) ≠ S.cwd ++ [k'.dir]) :
    (∀ p : Path, (∀ k : Kind, p ≠ S.cwd ++ [k.dir]) → (generateTree S cfg fs d).get p = fs.get p) ∧
    (∀ p b, (generateTree S cfg fs d).get p = some (.file b) → fs.get p = some (.file b)) ∧
    ∀ (k : Kind) (id : Str), Name id → openConfigs S (generateTree S cfg fs d) cfg k id = ⟨none, none, none⟩ := by
  -- what is true of every state between the operations
  let I : FS → Prop := fun g => (∀ p : Path, (∀ k : Kind, p ≠ S.cwd ++ [k.dir]) → g.get p = fs.get p) ∧
    ∀ p b, g.get p = some (.file b) → fs.get p = some (.file b)
  have below : ∀ (g : FS), I g → ∀ (k : Kind) (n : Str), Name n → g.get (resolve S.cwd (cfg ++ k.dir)) = none ∧
      (n ∉ [Kind.ca.dir, Kind.logger.dir, Kind.monitor.dir, Kind.gossiper.dir] → g.get (resolve S.cwd (cfg ++ k.dir) ++ [n]) = none) := by
    intro g hI k n _
    have h0 : g.get (resolve S.cwd (cfg ++ k.dir)) = none := by
      rw [hI.1 _ (helse k)]; exact has_get.1 (hmiss k)
    refine ⟨h0, fun hnot => ?_⟩
    rw [hI.1 _ (by
      intro k' e
      apply hnot
      have := congrArg List.getLast? e
      simp at this
      rw [this]
      cases k' <;> simp)]
    apply has_get.1
    cases hh : fs.has (resolve S.cwd (cfg ++ k.dir) ++ [n]) with
    | false => rfl
    | true =>
      have := hw.parent _ _ hh
      rw [has_get.1 (hmiss k)] at this
      cases this
  have hdigits : ∀ j, itoa j ∉ [Kind.ca.dir, Kind.logger.dir, Kind.monitor.dir, Kind.gossiper.dir] := by
    intro j hj
    have hd := itoa_digit j
    simp only [List.mem_cons, List.not_mem_nil, or_false] at hj
    have hu : (95 : UInt8) ∈ itoa j := by
      rcases hj with h | h | h | h <;> (rw [h]; decide)
    have := hd _ hu
    revert this; decide
  have hdirstep : ∀ (g : FS), I g → ∀ k : Kind, I (stepAt g (S.cwd ++ [k.dir], .dir)) := by
    intro g hI k
    simp only [stepAt]
    split
    · refine ⟨fun p hp => ?_, fun p b h => ?_⟩
      · rw [GoMap.get_set_ne _ _ (hp k)]; exact hI.1 p hp
      · rw [GoMap.get_set] at h
        split at h
        · cases h
        · exact hI.2 p b h
    · exact hI
  have hkind : ∀ (g : FS), I g → ∀ (k : Kind) (l : List Texts),
      (kindOps (resolve S.cwd (cfg ++ k.dir)) k 0 l).foldl stepAt g = g := by
    intro g hI k l
    apply steps_nothing
    intro o ho
    obtain ⟨j, t, _, ho⟩ := (mem_kindOps l 0).1 ho
    obtain ⟨h0, h1⟩ := below g hI k (itoa (0 + j + 1)) (name_itoa _)
    simp only [opsOf, List.mem_cons, List.not_mem_nil, or_false] at ho
    rcases ho with rfl | rfl | rfl | rfl
    · simp only [List.dropLast_concat]
      rw [h0]; simp
    all_goals
      simp only [dropLast_two]
      rw [h1 (hdigits _)]; simp
  have hI0 : I fs := ⟨fun _ _ => rfl, fun _ _ h => h⟩
  have hI : I (generateTree S cfg fs d) := by
    rw [generateTree_ops]
    unfold allOps
    simp only [List.foldl_append, List.foldl_cons, List.foldl_nil]
    have i1 := hdirstep _ (hdirstep _ hI0 .ca) .logger
    rw [hkind _ i1 .ca, hkind _ i1 .logger]
    have i2 := hdirstep _ i1 .monitor
    rw [hkind _ i2 .monitor]
    have i3 := hdirstep _ i2 .gossiper
    rw [hkind _ i3 .gossiper]
    exact i3
  refine ⟨hI.1, hI.2, ?_⟩
  intro k id hid
  obtain ⟨n1, n2, n3⟩ := name_files k
  have hnone : ∀ f, Name f → f ∉ [Kind.ca.dir, Kind.logger.dir, Kind.monitor.dir, Kind.gossiper.dir] →
      readByte S (generateTree S cfg fs d) (cfg ++ k.dir ++ go!"/" ++ id ++ go!"/" ++ f) = none := by
    intro f hf hnot
    unfold readByte
    rw [file_path S cfg k id f hid hf, hI.1 _ (by
      intro k' e
      apply hnot
      have := congrArg List.getLast? e
      simp at this
      rw [this]
      cases k' <;> simp)]
    have : fs.has (resolve S.cwd (cfg ++ k.dir) ++ [id, f]) = false := by
      cases hh : fs.has (resolve S.cwd (cfg ++ k.dir) ++ [id, f]) with
      | false => rfl
      | true =>
        have := Parents.prefixes hw.parent _ _ hh
        rw [hmiss k] at this
        cases this
    rw [has_get.1 this]
  have e : ∀ s : Str, cfg ++ k.dir ++ go!"/" ++ id ++ go!"/" ++ k.entity ++ s =
      cfg ++ k.dir ++ go!"/" ++ id ++ go!"/" ++ (k.entity ++ s) := by intro s; simp [List.append_assoc]
  unfold openConfigs
  simp only [e]
  have m1 := hnone _ n1 (by cases k <;> decide)
  have m2 := hnone _ n2 (by cases k <;> decide)
  have m3 := hnone _ n3 (by cases k <;> decide)
  unfold pubFile at m1
  unfold privFile at m2
  unfold cryptoFile at m3
  rw [m1, m2, m3]

end

section
variable {L : Lib} {F : RsaForm L}
open Gen

theorem diskOf_encoded (mmd mrd : Int) (d : Deployment L) (k : Kind) (i : Nat) (t : Texts)
    (h : (k.texts (diskOf F mmd mrd d))[i]? = some t) : Encoded t := by
  cases k <;> simp only [Kind.texts, diskOf, List.getElem?_map, Option.map_eq_some_iff] at h <;> obtain ⟨f, _, rfl⟩ := h <;>
    exact ⟨_, _, _, rfl⟩

/-- C157, from the generator to the running processes: with the numbers of C143, every program of tests/networktests, started in any
directory of the directory the deployment was generated in, runs with what was generated for the process number it is given. -/
theorem C157_programs_start_partial (hF : F.Laws) (K : KeyLib L) (hK : KeyLaws K)
    (numG threshold numL numCA numCert : Nat) (mmd mrd : Int) (hg : 2 ≤ numG) (hg' : numG ≤ 1000) (hl : 0 < numL) (hl' : numL ≤ 1000)
    (hc : numCA ≤ 1000) (hid : ∀ i, i < numG → K.blsIdOk (Role.gossiper.url i) = true) (ht : threshold < 2 ^ 63)
    (hcert : numCert < 2 ^ 63) (hm : GoInt mmd) (S S' : OS) (sub : Str) (hS : S'.cwd = S.cwd ++ [sub]) (fs : FS) :
    ∃ d, generateAll K numG threshold numL numCA numCert = some d ∧ (NothingInTheWay S fs (diskOf F mmd mrd d) →
      let fs' := generateTree S [] fs (diskOf F mmd mrd d)
      (∀ i, i < numCA → ∃ f c, d.cas[i]? = some f ∧ SameConfig c (load K f.crypto) ∧
        startCA F K (openConfigs S' fs' (go!"../") .ca (itoa (i + 1))) =
          .running ⟨some ⟨f.pub.cas, f.pub.loggers, mmd, mmd, [go!"1.1"]⟩, some f.priv, some c⟩) ∧
      (∀ i, i < numL → ∃ f c, d.loggers[i]? = some f ∧ SameConfig c (load K f.crypto) ∧
        startLogger F K (openConfigs S' fs' (go!"../") .logger (itoa (i + 1))) =
          .running ⟨some ⟨f.pub.cas, f.pub.loggers, mmd, mmd, [go!"1.1"]⟩, some f.priv, some c⟩) ∧
      (∀ i, i < numG → ∃ f c, d.monitors[i]? = some f ∧ SameConfig c (load K f.crypto) ∧
        startMonitor F K (openConfigs S' fs' (go!"../") .monitor (itoa (i + 1))) =
          .running ⟨some ⟨f.pub.cas, f.pub.loggers, 5, mmd, mmd⟩, some f.priv, some c⟩) ∧
      ∀ i, i < numG → ∃ f c, d.gossipers[i]? = some f ∧ SameConfig c (load K f.crypto) ∧
        startGossiper F K (openConfigs S' fs' (go!"../") .gossiper (itoa (i + 1))) =
          .running ⟨some ⟨5, mmd, mmd, f.pub.gossipers, f.pub.signers⟩, some f.priv, some c⟩) := by
  obtain ⟨d, h0, l1, l2, l3, l4, hs⟩ :=
    C143_generated_start_partial hF K hK numG threshold numL numCA numCert mmd mrd hg hg' hl hl' hc hid ht hcert hm
  refine ⟨d, h0, fun hn => ?_⟩
  have hfound : ∀ (k : Kind) (i : Nat) t, (k.texts (diskOf F mmd mrd d))[i]? = some t →
      openConfigs S' (generateTree S [] fs (diskOf F mmd mrd d)) (go!"../") k (itoa (i + 1)) = t := fun k i t hi =>
    ((C157_found_partial S fs _ hn).1 k i t hi (diskOf_encoded mmd mrd d k i t hi)).2 S' sub hS
  refine ⟨?_, ?_, ?_, ?_⟩ <;> intro i hi
  · obtain ⟨f, hf⟩ : ∃ f, d.cas[i]? = some f := ⟨_, List.getElem?_eq_getElem (by omega)⟩
    obtain ⟨c, h1, h2⟩ := hs.cas f (List.mem_of_getElem? hf)
    exact ⟨f, c, hf, h2, by rw [hfound .ca i _ (by simp only [Kind.texts, diskOf, List.getElem?_map, hf]; rfl)]; exact h1⟩
  · obtain ⟨f, hf⟩ : ∃ f, d.loggers[i]? = some f := ⟨_, List.getElem?_eq_getElem (by omega)⟩
    obtain ⟨c, h1, h2⟩ := hs.loggers f (List.mem_of_getElem? hf)
    exact ⟨f, c, hf, h2, by rw [hfound .logger i _ (by simp only [Kind.texts, diskOf, List.getElem?_map, hf]; rfl)]; exact h1⟩
  · obtain ⟨f, hf⟩ : ∃ f, d.monitors[i]? = some f := ⟨_, List.getElem?_eq_getElem (by omega)⟩
    obtain ⟨c, h1, h2⟩ := hs.monitors f (List.mem_of_getElem? hf)
    exact ⟨f, c, hf, h2, by rw [hfound .monitor i _ (by simp only [Kind.texts, diskOf, List.getElem?_map, hf]; rfl)]; exact h1⟩
  · obtain ⟨f, hf⟩ : ∃ f, d.gossipers[i]? = some f := ⟨_, List.getElem?_eq_getElem (by omega)⟩
    obtain ⟨c, h1, h2⟩ := hs.gossipers f (List.mem_of_getElem? hf)
    exact ⟨f, c, hf, h2, by rw [hfound .gossiper i _ (by simp only [Kind.texts, diskOf, List.getElem?_map, hf]; rfl)]; exact h1⟩

end

end FileTree
namespace Ref
open FileTree Wire

/-- The generator runs in `/tests`. -/
def genOS : OS := ⟨[go!"tests"], os.ls⟩
/-- A program runs in `/tests/Test1`. -/
def runOS : OS := ⟨[go!"tests", go!"Test1"], os.ls⟩

/-- A disk with the two directories and a file. -/
def disk0 : FS := (((GoMap.empty.set [] .dir).set [go!"tests"] .dir).set [go!"tests", go!"Test1"] .dir).set
  [go!"tests", go!"notes"] (.file (go!"x"))

theorem disk0_wf : disk0.WF := wf_of_keys (by decide +kernel) (by decide +kernel)

def tx (a : Str) : Texts := ⟨some (a ++ go!"p"), some (a ++ go!"s"), some (a ++ go!"k")⟩

/-- Two CAs, a logger, two monitors and gossipers. -/
def dep2 : Disk := ⟨[tx (go!"c1"), tx (go!"c2")], [tx (go!"l1")], [tx (go!"m1"), tx (go!"m2")], [tx (go!"g1"), tx (go!"g2")]⟩
/-- One CA. -/
def dep1 : Disk := ⟨[tx (go!"C1")], [tx (go!"L1")], [tx (go!"M1"), tx (go!"M2")], [tx (go!"G1"), tx (go!"G2")]⟩

theorem clear0 (d : Disk) : NothingInTheWay genOS disk0 d := by
  have hk : ∀ p, disk0.has p = true → p ∈ [[], [go!"tests"], [go!"tests", go!"Test1"], [go!"tests", go!"notes"]] := by
    intro p hp
    have := (GoMap.mem_keys_iff _ _).2 ((GoMap.has_iff _ _).1 hp)
    have e : ∀ q ∈ disk0.entries.map Prod.fst, q ∈ [[], [go!"tests"], [go!"tests", go!"Test1"], [go!"tests", go!"notes"]] := by
      decide +kernel
    exact e p this
  have none' : ∀ p, p ∉ [[], [go!"tests"], [go!"tests", go!"Test1"], [go!"tests", go!"notes"]] → disk0.get p = none := by
    intro p hp
    apply has_get.1
    cases h : disk0.has p with
    | false => rfl
    | true => exact absurd (hk p h) hp
  refine ⟨by decide +kernel, ?_, ?_, ?_⟩
  · intro k b
    rw [none' _ (by cases k <;> decide)]
    simp
  · intro k i _ b
    rw [none' _ (by simp [genOS])]
    simp
  · intro k i _ f _
    rw [none' _ (by simp [genOS])]
    simp

/-- The hypotheses of C157 are met by a disk with other things on it; the second CA of the first deployment is found after the
second one was generated. -/
example : openConfigs runOS (generateTree genOS [] disk0 dep2) (go!"../") .ca (itoa 2) = tx (go!"c2") ∧
    openConfigs genOS (generateTree genOS [] (generateTree genOS [] disk0 dep2) dep1) [] .ca (itoa 2) = tx (go!"c2") ∧
    openConfigs genOS (generateTree genOS [] (generateTree genOS [] disk0 dep2) dep1) [] .ca (itoa 1) = tx (go!"C1") :=
  ⟨((C157_found_partial genOS disk0 dep2 (clear0 _)).1 .ca 1 _ rfl ⟨_, _, _, rfl⟩).2 runOS _ rfl,
   (C157_violated_leftover genOS disk0 dep2 dep1 (clear0 _) (clear0 _) .ca 1 _ rfl ⟨_, _, _, rfl⟩ (by decide)).1,
   (C157_violated_leftover genOS disk0 dep2 dep1 (clear0 _) (clear0 _) .ca 1 _ rfl ⟨_, _, _, rfl⟩ (by decide)).2 .ca 0 _ rfl
    ⟨_, _, _, rfl⟩⟩

/-- With the path `out/` nothing is written. -/
example : openConfigs genOS (generateTree genOS (go!"out/") disk0 dep2) (go!"out/") .ca (itoa 1) = ⟨none, none, none⟩ :=
  (C157_violated_config_path genOS (go!"out/") disk0 disk0_wf dep2 (by intro k; cases k <;> decide +kernel)
    (by intro k k'; cases k <;> cases k' <;> decide +kernel)).2.2 .ca _ (name_itoa 1)

end Ref
end CTng
