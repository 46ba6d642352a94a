import Verif.Model.MapTree
import Verif.Props.GenFiles
/-
C144 and C157: `Map_all` on the file system of a generated deployment.
-/
set_option autoImplicit false

namespace CTng
namespace FileTree
open Wire Gen

/-- The files of the process `n` are there, with these contents. -/
def Has (S : OS) (fs : FS) (k : Kind) (n : Str) (t : Texts) : Prop :=
  fs.get (S.cwd ++ [k.dir, n]) = some .dir ∧ ∃ a b c, t = ⟨some a, some b, some c⟩ ∧
    fs.get (S.cwd ++ [k.dir, n, pubFile k]) = some (.file a) ∧ fs.get (S.cwd ++ [k.dir, n, privFile k]) = some (.file b) ∧
    fs.get (S.cwd ++ [k.dir, n, cryptoFile k]) = some (.file c)

section
variable (S : OS) {L : Lib} (F : RsaForm L) (K : KeyLib L) (ips : IPs)

theorem Has.opened {fs : FS} {k : Kind} {n : Str} {t : Texts} (hn : Name n) (h : Has S fs k n t) :
    openConfigs S fs [] k n = t ∧ ∀ (S' : OS) (sub : Str), S'.cwd = S.cwd ++ [sub] → openConfigs S' fs (go!"../") k n = t := by
  obtain ⟨_, a, b, c, rfl, h1, h2, h3⟩ := h
  have h0 := (openConfigs_at S fs k n hn []).1 S rfl a b c h1 h2 h3
  refine ⟨h0, fun S' sub hS => ?_⟩
  rw [(openConfigs_at S fs k n hn sub).2 S' hS, h0]

/-- A function that ends with something to write. -/
def Writes (f : Option Str → Option Str × Bool) : Prop := ∀ x, (f x).2 = true → ∃ z, (f x).1 = some z

theorem rewriteConf_writes {α : Type} (z : α) (d : Dec α) (f : α → Option α) (enc : α → Json) : Writes (rewriteConf z d f enc) := by
  intro x h
  unfold rewriteConf at h ⊢
  split
  · split
    · exact ⟨_, rfl⟩
    · next h1 _ h2 => simp [h1, h2] at h
  · next h1 => split at h <;> simp_all

theorem rewriteCrypto_writes (id : Int) : Writes (rewriteCrypto F K ips id) := by
  intro x h
  unfold rewriteCrypto at h ⊢
  cases x with
  | none => cases h
  | some t =>
    simp only at h ⊢
    split
    · exact ⟨_, rfl⟩
    · next h1 => simp [h1] at h

theorem rewriteAt_get {fs : FS} {path : Str} {p : Path} (hp : resolve S.cwd path = p) (hne : p ≠ [])
    (hd : fs.get p.dropLast = some .dir) (a : Str) (ha : fs.get p = some (.file a)) (f : Option Str → Option Str × Bool) (hf : Writes f) :
    (rewriteAt S fs path f).2 = (f (some a)).2 ∧
    ((f (some a)).2 = true → ∃ z, (f (some a)).1 = some z ∧ ∀ q, (rewriteAt S fs path f).1.get q = if q = p then some (.file z) else fs.get q) ∧
    ((f (some a)).2 = false → (rewriteAt S fs path f).1 = fs) := by
  have hr : readByte S fs path = some a := by unfold readByte; rw [hp, ha]
  unfold rewriteAt
  simp only [hr]
  cases h : (f (some a)).2 with
  | false => simp
  | true =>
    obtain ⟨z, hz⟩ := hf _ h
    refine ⟨rfl, fun _ => ⟨z, hz, fun q => ?_⟩, fun h => Bool.noConfusion h⟩
    have hh : fs.has p = true := by
      cases hh : fs.has p with
      | true => rfl
      | false => rw [has_get.1 hh] at ha; cases ha
    have hw : writable fs p := ⟨hne, hd, by rw [ha]; simp⟩
    simp only [if_true, hz, writeData, hp, hh]
    simp only [put, hp, if_pos hw]
    rw [GoMap.get_set]

/-- What `Map_all` makes of the files of a process, as in `Wire.mapAllFiles`. -/
def threeOf (k : Kind) (id : Int) : Texts → Texts × Bool :=
  rewriteThree (privRewrite ips k id) (pubRewrite ips k) (rewriteCrypto F K ips id)

theorem privRewrite_writes (k : Kind) (id : Int) : Writes (privRewrite ips k id) := by
  cases k <;> exact rewriteConf_writes _ _ _ _

theorem pubRewrite_writes (k : Kind) : Writes (pubRewrite ips k) := by
  cases k <;> exact rewriteConf_writes _ _ _ _

theorem entity_path (k : Kind) (n f : Str) (hn : Name n) (hf : Name f) :
    resolve S.cwd (k.dir ++ go!"/" ++ n ++ go!"/" ++ f) = S.cwd ++ [k.dir, n, f] := by
  have := file_path S [] k n f hn hf
  rw [List.nil_append, dir_path] at this
  rw [this]
  simp

theorem mapEntity_get {fs : FS} {k : Kind} {i : Nat} {t : Texts} (h : Has S fs k (itoa (i + 1)) t) :
    (mapEntity S F K ips k fs i).2 = (threeOf F K ips k ((i : Int) + 1) t).2 ∧
    Has S (mapEntity S F K ips k fs i).1 k (itoa (i + 1)) (threeOf F K ips k ((i : Int) + 1) t).1 ∧
    ∀ q, (∀ f, q ≠ S.cwd ++ [k.dir, itoa (i + 1), f]) → (mapEntity S F K ips k fs i).1.get q = fs.get q := by
  obtain ⟨hd, a, b, c, rfl, h1, h2, h3⟩ := h
  obtain ⟨n1, n2, n3⟩ := name_files k
  obtain ⟨d1, d2, d3⟩ := files_differ k
  have hn := name_itoa (i + 1)
  have e : ∀ s : Str, k.dir ++ go!"/" ++ itoa (i + 1) ++ go!"/" ++ k.entity ++ s =
      k.dir ++ go!"/" ++ itoa (i + 1) ++ go!"/" ++ (k.entity ++ s) := by intro s; simp [List.append_assoc]
  have p1 := entity_path S k _ _ hn n1
  have p2 := entity_path S k _ _ hn n2
  have p3 := entity_path S k _ _ hn n3
  have hne : ∀ f, S.cwd ++ [k.dir, itoa (i + 1), f] ≠ [] := by intro f; simp
  have hpar : ∀ f, (S.cwd ++ [k.dir, itoa (i + 1), f]).dropLast = S.cwd ++ [k.dir, itoa (i + 1)] := by
    intro f; rw [List.dropLast_append_of_ne_nil (by simp)]; rfl
  have hfd : ∀ f g : Str, f ≠ g → S.cwd ++ [k.dir, itoa (i + 1), f] ≠ S.cwd ++ [k.dir, itoa (i + 1), g] := by
    intro f g hfg he; simp at he; exact hfg he
  have hdd : ∀ f : Str, S.cwd ++ [k.dir, itoa (i + 1)] ≠ S.cwd ++ [k.dir, itoa (i + 1), f] := by
    intro f he; simp at he
  have A := rewriteAt_get S p2 (hne _) (by rw [hpar]; exact hd) b h2 _ (privRewrite_writes ips k ((i : Int) + 1))
  unfold mapEntity threeOf rewriteThree
  simp only [e]
  change (rewriteAt S fs (k.dir ++ go!"/" ++ itoa (i + 1) ++ go!"/" ++ privFile k) (privRewrite ips k ((i : Int) + 1))).2 = _ ∧ _ at A
  generalize hA : rewriteAt S fs (k.dir ++ go!"/" ++ itoa (i + 1) ++ go!"/" ++ privFile k) (privRewrite ips k ((i : Int) + 1)) = ra at A
  have hA' : rewriteAt S fs (k.dir ++ go!"/" ++ itoa (i + 1) ++ go!"/" ++ (k.entity ++ go!"_private_config.json"))
    (privRewrite ips k ((i : Int) + 1)) = ra := hA
  rw [hA']
  cases ha : (privRewrite ips k ((i : Int) + 1) (some b)).2 with
  | false =>
    have ea : ra.2 = false := by rw [A.1, ha]
    have eb := A.2.2 ha
    simp only [ea, Bool.false_eq_true, if_false, eb]
    exact ⟨trivial, ⟨hd, a, b, c, rfl, h1, h2, h3⟩, fun _ _ => trivial⟩
  | true =>
    have ea : ra.2 = true := by rw [A.1, ha]
    obtain ⟨b', hb', gA⟩ := A.2.1 ha
    simp only [ea, if_true, hb']
    have B := rewriteAt_get S (fs := ra.1) p1 (hne _) (by rw [hpar, gA, if_neg (hdd _)]; exact hd) a
      (by rw [gA, if_neg (hfd _ _ d1)]; exact h1) _ (pubRewrite_writes ips k)
    generalize hB : rewriteAt S ra.1 (k.dir ++ go!"/" ++ itoa (i + 1) ++ go!"/" ++ pubFile k) (pubRewrite ips k) = rb at B
    have hB' : rewriteAt S ra.1 (k.dir ++ go!"/" ++ itoa (i + 1) ++ go!"/" ++ (k.entity ++ go!"_public_config.json"))
      (pubRewrite ips k) = rb := hB
    rw [hB']
    cases hb : (pubRewrite ips k (some a)).2 with
    | false =>
      have eb : rb.2 = false := by rw [B.1, hb]
      have ec := B.2.2 hb
      simp only [eb, Bool.false_eq_true, if_false, ec]
      refine ⟨trivial, ⟨?_, a, b', c, rfl, ?_, ?_, ?_⟩, fun q hq => ?_⟩
      · rw [gA, if_neg (hdd _)]; exact hd
      · rw [gA, if_neg (hfd _ _ d1)]; exact h1
      · rw [gA, if_pos rfl]
      · rw [gA, if_neg (hfd _ _ d3.symm)]; exact h3
      · rw [gA, if_neg (hq _)]
    | true =>
      have eb : rb.2 = true := by rw [B.1, hb]
      obtain ⟨a', ha', gB⟩ := B.2.1 hb
      simp only [eb, if_true, ha']
      have C := rewriteAt_get S (fs := rb.1) p3 (hne _) (by rw [hpar, gB, if_neg (hdd _), gA, if_neg (hdd _)]; exact hd) c
        (by rw [gB, if_neg (hfd _ _ d2.symm), gA, if_neg (hfd _ _ d3.symm)]; exact h3) _ (rewriteCrypto_writes F K ips ((i : Int) + 1))
      generalize hC : rewriteAt S rb.1 (k.dir ++ go!"/" ++ itoa (i + 1) ++ go!"/" ++ cryptoFile k)
        (rewriteCrypto F K ips ((i : Int) + 1)) = rc at C
      have hC' : rewriteAt S rb.1 (k.dir ++ go!"/" ++ itoa (i + 1) ++ go!"/" ++ (k.entity ++ go!"_crypto_config.json"))
        (rewriteCrypto F K ips ((i : Int) + 1)) = rc := hC
      rw [hC']
      have fin : ∃ c', (rewriteCrypto F K ips ((i : Int) + 1) (some c)).1 = some c' ∧
          ∀ q, rc.1.get q = if q = S.cwd ++ [k.dir, itoa (i + 1), cryptoFile k] then some (.file c') else rb.1.get q := by
        cases hc : (rewriteCrypto F K ips ((i : Int) + 1) (some c)).2 with
        | true => exact C.2.1 hc
        | false =>
          refine ⟨c, ?_, fun q => ?_⟩
          · unfold rewriteCrypto at hc ⊢
            simp only at hc ⊢
            split at hc
            · cases hc
            · simp
          · rw [C.2.2 hc]
            split
            · next eq => rw [eq, gB, if_neg (hfd _ _ d2.symm), gA, if_neg (hfd _ _ d3.symm)]; exact h3
            · rfl
      obtain ⟨c', hc', gC⟩ := fin
      refine ⟨C.1, ⟨?_, a', b', c', by rw [hc'], ?_, ?_, ?_⟩, fun q hq => ?_⟩
      · rw [gC, if_neg (hdd _), gB, if_neg (hdd _), gA, if_neg (hdd _)]; exact hd
      · rw [gC, if_neg (hfd _ _ d2), gB, if_pos rfl]
      · rw [gC, if_neg (hfd _ _ d3), gB, if_neg (hfd _ _ d1.symm), gA, if_pos rfl]
      · rw [gC, if_pos rfl]
      · rw [gC, if_neg (hq _), gB, if_neg (hq _), gA, if_neg (hq _)]

theorem Has.frame {fs fs' : FS} {k k' : Kind} {n n' : Str} {t : Texts} (h : Has S fs k' n' t) (hne : k' ≠ k ∨ n' ≠ n)
    (hq : ∀ q, (∀ f, q ≠ S.cwd ++ [k.dir, n, f]) → fs'.get q = fs.get q) : Has S fs' k' n' t := by
  obtain ⟨hd, a, b, c, rfl, h1, h2, h3⟩ := h
  have hf : ∀ g f, S.cwd ++ [k'.dir, n', g] ≠ S.cwd ++ [k.dir, n, f] := by
    intro g f e
    simp only [List.append_cancel_left_eq, List.cons.injEq] at e
    rcases hne with h | h
    · exact h (kind_dir_inj e.1)
    · exact h e.2.1
  refine ⟨?_, a, b, c, rfl, ?_, ?_, ?_⟩
  · rw [hq _ (by intro f e; simp at e)]; exact hd
  · rw [hq _ (hf _)]; exact h1
  · rw [hq _ (hf _)]; exact h2
  · rw [hq _ (hf _)]; exact h3

theorem mapKindTree_get (k : Kind) (l : List Texts) (fs : FS) (hl : ∀ (i : Nat) t, l[i]? = some t → Has S fs k (itoa (i + 1)) t) :
    ∀ num : Nat, num ≤ l.length →
      (mapKindTree S F K ips k num fs).2 = (mapDirs (threeOf F K ips k) num l).2 ∧
      (mapDirs (threeOf F K ips k) num l).1.length = l.length ∧
      (∀ (i : Nat) t, (mapDirs (threeOf F K ips k) num l).1[i]? = some t → Has S (mapKindTree S F K ips k num fs).1 k (itoa (i + 1)) t) ∧
      ∀ q, (∀ n f, q ≠ S.cwd ++ [k.dir, n, f]) → (mapKindTree S F K ips k num fs).1.get q = fs.get q := by
  intro num
  induction num with
  | zero => intro _; exact ⟨rfl, rfl, hl, fun _ _ => rfl⟩
  | succ num ih =>
    intro hnum
    obtain ⟨h1, h2, h3, h4⟩ := ih (by omega)
    have eT : mapKindTree S F K ips k (num + 1) fs = if (mapKindTree S F K ips k num fs).2 then
        mapEntity S F K ips k (mapKindTree S F K ips k num fs).1 num else mapKindTree S F K ips k num fs := by
      unfold mapKindTree
      rw [List.range_succ, List.foldl_append]
      rfl
    have eL : mapDirs (threeOf F K ips k) (num + 1) l = if (mapDirs (threeOf F K ips k) num l).2 then
        ((mapDirs (threeOf F K ips k) num l).1.set num (threeOf F K ips k ((num : Int) + 1)
          (((mapDirs (threeOf F K ips k) num l).1[num]?).getD ⟨none, none, none⟩)).1,
          (threeOf F K ips k ((num : Int) + 1) (((mapDirs (threeOf F K ips k) num l).1[num]?).getD ⟨none, none, none⟩)).2)
        else mapDirs (threeOf F K ips k) num l := by
      unfold mapDirs
      rw [List.range_succ, List.foldl_append]
      rfl
    rw [eT, eL, h1]
    cases hok : (mapDirs (threeOf F K ips k) num l).2 with
    | false =>
      simp only [Bool.false_eq_true, if_false]
      exact ⟨by rw [h1], h2, h3, h4⟩
    | true =>
      simp only [if_true]
      obtain ⟨t, ht⟩ : ∃ t, (mapDirs (threeOf F K ips k) num l).1[num]? = some t :=
        ⟨_, List.getElem?_eq_getElem (by omega)⟩
      simp only [ht, Option.getD_some]
      obtain ⟨m1, m2, m3⟩ := mapEntity_get S F K ips (h3 num t ht)
      refine ⟨m1, by simp [h2], ?_, fun q hq => ?_⟩
      · intro i u hu
        rw [List.getElem?_set] at hu
        split at hu
        · next e =>
          subst e
          split at hu
          · rw [← Option.some.inj hu]; exact m2
          · cases hu
        · next e =>
          exact (h3 i u hu).frame S (.inr fun he => e (by have := itoa_inj he; omega)) m3
      · rw [m3 q (hq _), h4 q hq]

theorem Has.frame_kind {fs fs' : FS} {k k' : Kind} {n' : Str} {t : Texts} (h : Has S fs k' n' t) (hne : k' ≠ k)
    (hq : ∀ q, (∀ n f, q ≠ S.cwd ++ [k.dir, n, f]) → fs'.get q = fs.get q) : Has S fs' k' n' t := by
  obtain ⟨hd, a, b, c, rfl, h1, h2, h3⟩ := h
  have hf : ∀ g n f, S.cwd ++ [k'.dir, n', g] ≠ S.cwd ++ [k.dir, n, f] := by
    intro g n f e
    simp only [List.append_cancel_left_eq, List.cons.injEq] at e
    exact hne (kind_dir_inj e.1)
  refine ⟨?_, a, b, c, rfl, ?_, ?_, ?_⟩
  · rw [hq _ (by intro n f e; simp at e)]; exact hd
  · rw [hq _ (hf _)]; exact h1
  · rw [hq _ (hf _)]; exact h2
  · rw [hq _ (hf _)]; exact h3

/-- The files of all processes are there. -/
def HasAll (fs : FS) (d : Disk) : Prop := ∀ (k : Kind) (i : Nat) (t : Texts), (k.texts d)[i]? = some t → Has S fs k (itoa (i + 1)) t

/-- `Map_all` on the file system does what `Wire.mapAllFiles` does with the contents of the files, and touches no other file. -/
theorem mapTree_get (d : Disk) (fs : FS) (h : HasAll S fs d) (numCA numL numMG : Nat) (h1 : numCA ≤ d.cas.length)
    (h2 : numL ≤ d.loggers.length) (h3 : numMG ≤ d.monitors.length) (h4 : numMG ≤ d.gossipers.length) :
    (mapTree S F K ips numCA numL numMG fs).2 = (mapAllFiles F K ips numCA numL numMG d).2 ∧
    HasAll S (mapTree S F K ips numCA numL numMG fs).1 (mapAllFiles F K ips numCA numL numMG d).1 ∧
    ∀ q, (∀ (k : Kind) n f, q ≠ S.cwd ++ [k.dir, n, f]) → (mapTree S F K ips numCA numL numMG fs).1.get q = fs.get q := by
  obtain ⟨a1, a2, a3, a4⟩ := mapKindTree_get S F K ips .ca d.cas fs (h .ca) numCA h1
  generalize hA : mapKindTree S F K ips .ca numCA fs = A at a1 a3 a4
  obtain ⟨b1, b2, b3, b4⟩ := mapKindTree_get S F K ips .logger d.loggers A.1
    (fun i t ht => (h .logger i t ht).frame_kind S (by decide) a4) numL h2
  generalize hB : mapKindTree S F K ips .logger numL A.1 = B at b1 b3 b4
  obtain ⟨c1, c2, c3, c4⟩ := mapKindTree_get S F K ips .monitor d.monitors B.1
    (fun i t ht => ((h .monitor i t ht).frame_kind S (by decide) a4).frame_kind S (by decide) b4) numMG h3
  generalize hC : mapKindTree S F K ips .monitor numMG B.1 = C at c1 c3 c4
  obtain ⟨e1, e2, e3, e4⟩ := mapKindTree_get S F K ips .gossiper d.gossipers C.1
    (fun i t ht => (((h .gossiper i t ht).frame_kind S (by decide) a4).frame_kind S (by decide) b4).frame_kind S (by decide) c4) numMG h4
  generalize hE : mapKindTree S F K ips .gossiper numMG C.1 = E at e1 e3 e4
  have x1 : mapCAFiles F K ips = threeOf F K ips .ca := rfl
  have x2 : mapLoggerFiles F K ips = threeOf F K ips .logger := rfl
  have x3 : mapMonitorFiles F K ips = threeOf F K ips .monitor := rfl
  have x4 : mapGossiperFiles F K ips = threeOf F K ips .gossiper := rfl
  unfold mapTree mapAllFiles
  rw [x1, x2, x3, x4]
  simp only [hA, hB, hC, hE]
  generalize mapDirs (threeOf F K ips .ca) numCA d.cas = a at *
  generalize mapDirs (threeOf F K ips .logger) numL d.loggers = b at *
  generalize mapDirs (threeOf F K ips .monitor) numMG d.monitors = c at *
  generalize mapDirs (threeOf F K ips .gossiper) numMG d.gossipers = g at *
  have fr : ∀ (k : Kind) (X Y : FS), (∀ q, (∀ n f, q ≠ S.cwd ++ [k.dir, n, f]) → X.get q = Y.get q) →
      ∀ k' n' t, k' ≠ k → Has S Y k' n' t → Has S X k' n' t := fun k X Y hq k' n' t hne hh => hh.frame_kind S hne hq
  rw [a1]
  cases ha : a.2 with
  | false =>
    simp only [Bool.false_eq_true, if_false]
    refine ⟨by rw [a1, ha], fun k i t ht => ?_, fun q hq => a4 q (hq _)⟩
    cases k with
    | ca => exact a3 i t ht
    | logger => exact fr _ _ _ a4 _ _ _ (by decide) (h .logger i t ht)
    | monitor => exact fr _ _ _ a4 _ _ _ (by decide) (h .monitor i t ht)
    | gossiper => exact fr _ _ _ a4 _ _ _ (by decide) (h .gossiper i t ht)
  | true =>
    simp only [if_true]
    rw [b1]
    cases hb : b.2 with
    | false =>
      simp only [Bool.false_eq_true, if_false]
      refine ⟨by rw [b1, hb], fun k i t ht => ?_, fun q hq => by rw [b4 q (hq _), a4 q (hq _)]⟩
      cases k with
      | ca => exact fr _ _ _ b4 _ _ _ (by decide) (a3 i t ht)
      | logger => exact b3 i t ht
      | monitor => exact fr _ _ _ b4 _ _ _ (by decide) (fr _ _ _ a4 _ _ _ (by decide) (h .monitor i t ht))
      | gossiper => exact fr _ _ _ b4 _ _ _ (by decide) (fr _ _ _ a4 _ _ _ (by decide) (h .gossiper i t ht))
    | true =>
      simp only [if_true]
      rw [c1]
      cases hc : c.2 with
      | false =>
        simp only [Bool.false_eq_true, if_false]
        refine ⟨by rw [c1, hc], fun k i t ht => ?_, fun q hq => by rw [c4 q (hq _), b4 q (hq _), a4 q (hq _)]⟩
        cases k with
        | ca => exact fr _ _ _ c4 _ _ _ (by decide) (fr _ _ _ b4 _ _ _ (by decide) (a3 i t ht))
        | logger => exact fr _ _ _ c4 _ _ _ (by decide) (b3 i t ht)
        | monitor => exact c3 i t ht
        | gossiper =>
          exact fr _ _ _ c4 _ _ _ (by decide) (fr _ _ _ b4 _ _ _ (by decide) (fr _ _ _ a4 _ _ _ (by decide) (h .gossiper i t ht)))
      | true =>
        simp only [if_true]
        refine ⟨e1, fun k i t ht => ?_, fun q hq => by rw [e4 q (hq _), c4 q (hq _), b4 q (hq _), a4 q (hq _)]⟩
        cases k with
        | ca => exact fr _ _ _ e4 _ _ _ (by decide) (fr _ _ _ c4 _ _ _ (by decide) (fr _ _ _ b4 _ _ _ (by decide) (a3 i t ht)))
        | logger => exact fr _ _ _ e4 _ _ _ (by decide) (fr _ _ _ c4 _ _ _ (by decide) (b3 i t ht))
        | monitor => exact fr _ _ _ e4 _ _ _ (by decide) (c3 i t ht)
        | gossiper => exact e3 i t ht

/-- A generated deployment is there. -/
theorem generated_has (fs : FS) (d : Disk) (hn : NothingInTheWay S fs d) (he : ∀ (k : Kind) (i : Nat) (t : Texts),
    (k.texts d)[i]? = some t → Encoded t) : HasAll S (generateTree S [] fs d) d := by
  obtain ⟨hg, _⟩ := generated_get S hn
  intro k i t hi
  obtain ⟨a, b, c, rfl⟩ := he k i t hi
  have hops : ∀ o ∈ opsOf (resolve S.cwd ([] ++ k.dir)) k i ⟨some a, some b, some c⟩,
      (generateTree S [] fs d).get o.1 = some o.2 := fun o ho => hg o ((mem_allOps S []).2 (.inr ⟨k, i, _, hi, ho⟩))
  rw [List.nil_append, dir_path] at hops
  simp only [opsOf, List.append_assoc, List.singleton_append, List.mem_cons, List.not_mem_nil, or_false, forall_eq_or_imp,
    forall_eq, Option.getD_some] at hops
  obtain ⟨h0, h1, h2, h3⟩ := hops
  exact ⟨h0, a, b, c, rfl, h1, h2, h3⟩

theorem mapDirs_length (step : Int → Texts → Texts × Bool) (num : Nat) (l : List Texts) : (mapDirs step num l).1.length = l.length := by
  unfold mapDirs
  generalize List.range num = r
  suffices h : ∀ acc : List Texts × Bool, (r.foldl (fun acc (i : Nat) =>
      if acc.2 then
        let r := step ((i : Int) + 1) ((acc.1[i]?).getD ⟨none, none, none⟩)
        (acc.1.set i r.1, r.2)
      else acc) acc).1.length = acc.1.length from h (l, true)
  induction r with
  | nil => intro acc; rfl
  | cons i t ih =>
    intro acc
    rw [List.foldl_cons, ih]
    split
    · simp
    · rfl

theorem mapDirs_lengths (numCA numL numMG : Nat) (d : Disk) :
    let e := (mapAllFiles F K ips numCA numL numMG d).1
    e.cas.length = d.cas.length ∧ e.loggers.length = d.loggers.length ∧ e.monitors.length = d.monitors.length ∧
      e.gossipers.length = d.gossipers.length := by
  intro e
  simp only [e, mapAllFiles]
  split
  · split
    · split <;> simp [mapDirs_length]
    · simp [mapDirs_length]
  · simp [mapDirs_length]

/-- C144, from the generator over the mapping to the running processes: `Map_all`, run where the deployment was generated, comes to its
end; then every program of tests/networktests, started in any directory of that directory with a process number, runs with the
mapped configuration of this process, under the address the table gives it. Files of other names and directories stay. -/
theorem C144_on_disk_partial (hF : F.Laws) (hK : KeyLaws K) (hips : AsciiHosts ips) (rsa : L.RsaLaws K.rsaPub) (bls : L.BlsLaws K.blsPub)
    (numG threshold numL numCA numCert : Nat) (mmd mrd : Int) (hg : 2 ≤ numG) (hg' : numG ≤ 1000) (hl : 0 < numL) (hl' : numL ≤ 1000)
    (hc : numCA ≤ 1000) (hid : ∀ i, i < numG → K.blsIdOk (Role.gossiper.url i) = true) (ht : threshold < 2 ^ 63)
    (hcert : numCert < 2 ^ 63) (hm : GoInt mmd) (S' : OS) (sub : Str) (hS : S'.cwd = S.cwd ++ [sub]) (fs : FS) :
    ∃ d d', generateAll K numG threshold numL numCA numCert = some d ∧ mapAll K ips d = some d' ∧
      (NothingInTheWay S fs (diskOf F mmd mrd d) →
      let m := mapTree S F K ips numCA numL numG (generateTree S [] fs (diskOf F mmd mrd d))
      m.2 = true ∧
      (∀ q, (∀ (k : Kind) n f, q ≠ S.cwd ++ [k.dir, n, f]) → m.1.get q = (generateTree S [] fs (diskOf F mmd mrd d)).get q) ∧
      (∀ i, i < numCA → ∃ f c, d'.cas[i]? = some f ∧ f.priv.signer = Role.ca.addr ips i ∧ SameConfig c (load K f.crypto) ∧
        startCA F K (openConfigs S' m.1 (go!"../") .ca (itoa (i + 1))) =
          .running ⟨some ⟨f.pub.cas, f.pub.loggers, mmd, mmd, [go!"1.1"]⟩, some f.priv, some c⟩) ∧
      (∀ i, i < numL → ∃ f c, d'.loggers[i]? = some f ∧ f.priv.signer = Role.logger.addr ips i ∧ SameConfig c (load K f.crypto) ∧
        startLogger F K (openConfigs S' m.1 (go!"../") .logger (itoa (i + 1))) =
          .running ⟨some ⟨f.pub.cas, f.pub.loggers, mmd, mmd, [go!"1.1"]⟩, some f.priv, some c⟩) ∧
      (∀ i, i < numG → ∃ f c, d'.monitors[i]? = some f ∧ f.priv.signer = Role.monitor.addr ips i ∧
        f.priv.gossiperURL = Role.gossiper.addr ips i ∧ SameConfig c (load K f.crypto) ∧
        startMonitor F K (openConfigs S' m.1 (go!"../") .monitor (itoa (i + 1))) =
          .running ⟨some ⟨f.pub.cas, f.pub.loggers, 5, mmd, mmd⟩, some f.priv, some c⟩) ∧
      ∀ i, i < numG → ∃ f c, d'.gossipers[i]? = some f ∧ SameConfig c (load K f.crypto) ∧
        startGossiper F K (openConfigs S' m.1 (go!"../") .gossiper (itoa (i + 1))) =
          .running ⟨some ⟨5, mmd, mmd, f.pub.gossipers, f.pub.signers⟩, some f.priv, some c⟩) := by
  obtain ⟨d0, h0, l1, l2, l3, l4, _⟩ :=
    C143_generated_start_partial hF K hK numG threshold numL numCA numCert mmd mrd hg hg' hl hl' hc hid ht hcert hm
  obtain ⟨d, d', disk, e1, e2, e3, hs, a1, a2, a3⟩ := C144_mapped_start_partial K ips hF hK hips rsa bls numG threshold numL numCA
    numCert mmd mrd hg hg' hl hl' hc hid ht hcert hm
  rw [h0] at e1
  obtain rfl := Option.some.inj e1
  refine ⟨d0, d', h0, e2, fun hn => ?_⟩
  have hh := generated_has S fs _ hn (diskOf_encoded mmd mrd d0)
  obtain ⟨m1, m2, m3⟩ := mapTree_get S F K ips (diskOf F mmd mrd d0) _ hh numCA numL numG (by simp [diskOf, l1]) (by simp [diskOf, l2])
    (by simp [diskOf, l3]) (by simp [diskOf, l4])
  rw [e3] at m1 m2
  obtain ⟨c1, c2, c3, c4⟩ := hs.counts
  have g := mapDirs_lengths F K ips numCA numL numG (diskOf F mmd mrd d0)
  rw [e3] at g
  obtain ⟨g1, g2, g3, g4⟩ := g
  simp only [diskOf, List.length_map, l1, l2, l3, l4] at g1 g2 g3 g4
  refine ⟨m1, m3, ?_, ?_, ?_, ?_⟩ <;> intro i hi
  · obtain ⟨t, hx⟩ : ∃ t, disk.cas[i]? = some t := ⟨_, List.getElem?_eq_getElem (by omega)⟩
    obtain ⟨f, hf⟩ : ∃ f, d'.cas[i]? = some f := ⟨_, List.getElem?_eq_getElem (by omega)⟩
    obtain ⟨c, r1, r2⟩ := hs.cas i f t hf hx
    exact ⟨f, c, hf, a1 i f hf, r2, by rw [((m2 .ca i t hx).opened S (name_itoa _)).2 S' sub hS]; exact r1⟩
  · obtain ⟨t, hx⟩ : ∃ t, disk.loggers[i]? = some t := ⟨_, List.getElem?_eq_getElem (by omega)⟩
    obtain ⟨f, hf⟩ : ∃ f, d'.loggers[i]? = some f := ⟨_, List.getElem?_eq_getElem (by omega)⟩
    obtain ⟨c, r1, r2⟩ := hs.loggers i f t hf hx
    exact ⟨f, c, hf, a2 i f hf, r2, by rw [((m2 .logger i t hx).opened S (name_itoa _)).2 S' sub hS]; exact r1⟩
  · obtain ⟨t, hx⟩ : ∃ t, disk.monitors[i]? = some t := ⟨_, List.getElem?_eq_getElem (by omega)⟩
    obtain ⟨f, hf⟩ : ∃ f, d'.monitors[i]? = some f := ⟨_, List.getElem?_eq_getElem (by omega)⟩
    obtain ⟨c, r1, r2⟩ := hs.monitors i f t hf hx
    exact ⟨f, c, hf, (a3 i f hf).1, (a3 i f hf).2, r2, by rw [((m2 .monitor i t hx).opened S (name_itoa _)).2 S' sub hS]; exact r1⟩
  · obtain ⟨t, hx⟩ : ∃ t, disk.gossipers[i]? = some t := ⟨_, List.getElem?_eq_getElem (by omega)⟩
    obtain ⟨f, hf⟩ : ∃ f, d'.gossipers[i]? = some f := ⟨_, List.getElem?_eq_getElem (by omega)⟩
    obtain ⟨c, r1, r2⟩ := hs.gossipers i f t hf hx
    exact ⟨f, c, hf, r2, by rw [((m2 .gossiper i t hx).opened S (name_itoa _)).2 S' sub hS]; exact r1⟩

/-- C144, where there is no deployment: run in a directory without the private configuration of the first CA, `Map_all` ends at once and
the disk stays as it was. -/
theorem C144_no_deployment_partial (numCA numL numMG : Nat) (h : 0 < numCA) (fs : FS)
    (hno : ∀ b, fs.get (S.cwd ++ [Kind.ca.dir, itoa 1, go!"CA_private_config.json"]) ≠ some (.file b)) :
    mapTree S F K ips numCA numL numMG fs = (fs, false) := by
  have hr : readByte S fs (Kind.ca.dir ++ go!"/" ++ itoa 1 ++ go!"/" ++ Kind.ca.entity ++ go!"_private_config.json") = none := by
    unfold readByte
    have := entity_path S .ca (itoa 1) (privFile .ca) (name_itoa 1) (name_files .ca).2.1
    have e : Kind.ca.dir ++ go!"/" ++ itoa 1 ++ go!"/" ++ Kind.ca.entity ++ go!"_private_config.json" =
      Kind.ca.dir ++ go!"/" ++ itoa 1 ++ go!"/" ++ privFile .ca := by simp [privFile, List.append_assoc]
    rw [e, this]
    have hno' : ∀ b, fs.get (S.cwd ++ [Kind.ca.dir, itoa 1, privFile .ca]) ≠ some (.file b) := hno
    split
    · next b hb => exact absurd hb (hno' b)
    · rfl
  have he : mapEntity S F K ips .ca fs 0 = (fs, false) := by
    unfold mapEntity rewriteAt
    simp only [Nat.zero_add, hr]
    rfl
  have hk : mapKindTree S F K ips .ca numCA fs = (fs, false) := by
    unfold mapKindTree
    obtain ⟨n, rfl⟩ : ∃ n, numCA = n + 1 := ⟨numCA - 1, by omega⟩
    rw [List.range_succ_eq_map, List.foldl_cons]
    simp only [if_true, he]
    generalize List.map Nat.succ (List.range n) = l
    induction l with
    | nil => rfl
    | cons _ _ ih => simpa using ih
  unfold mapTree
  simp [hk]

end
end FileTree

namespace Ref
open FileTree Wire Gen

/-- C144 on the disk: a deployment of one CA, one logger and two monitors with gossipers is generated in `/tests`, mapped there, and the
second monitor is started in `/tests/Test1`: it signs with the address of the table. -/
example : ∃ d d' f c, generateAll keys 2 2 1 1 4 = some d ∧ mapAll keys smallIPs d = some d' ∧ d'.monitors[1]? = some f ∧
    f.priv.signer = Role.monitor.addr smallIPs 1 ∧
    startMonitor form keys (openConfigs runOS (mapTree genOS form keys smallIPs 1 1 2 (generateTree genOS [] disk0 (diskOf form 60 30 d))).1
      (go!"../") .monitor (itoa 2)) = .running ⟨some ⟨f.pub.cas, f.pub.loggers, 5, 60, 60⟩, some f.priv, some c⟩ := by
  obtain ⟨d, d', h1, h2, h3⟩ := C144_on_disk_partial genOS form keys smallIPs formLaws keyLaws smallIPs_ascii rsaLaws blsLaws
    2 2 1 1 4 60 30 (by omega) (by omega) (by omega) (by omega) (by omega) (ids_ok 2 (by omega)) (by omega) (by omega) ⟨by omega, by omega⟩
    runOS _ rfl disk0
  obtain ⟨f, c, r1, r2, _, _, r5⟩ := (h3 (clear0 _)).2.2.2.2.1 1 (by decide)
  exact ⟨d, d', f, c, h1, h2, r1, r2, r5⟩

example : mapTree genOS form keys smallIPs 1 1 2 disk0 = (disk0, false) :=
  C144_no_deployment_partial genOS form keys smallIPs 1 1 2 (by decide) disk0 (by
    intro b
    have : disk0.get (genOS.cwd ++ [Kind.ca.dir, itoa 1, go!"CA_private_config.json"]) = none := by decide +kernel
    rw [this]
    simp)

end Ref
end CTng
