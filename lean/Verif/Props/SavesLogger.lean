import Verif.Props.Saves
import Verif.Props.Lies
/- C149: the file of a logger. -/
set_option autoImplicit false

namespace CTng
open FileTree Wire Json
variable {L : Lib} (X : XLib) (c : LoggerConf L) (certJson : Cert → Str) (S : OS)

/-! ### Specification -/

/-- At `p` there is a file whose JSON is the list of these certificates, each an array of one string, the base64 form of its
JSON. -/
def HoldsCerts (fs : FS) (p : Path) (certs : List Cert) : Prop :=
  ∃ text rows, fs.get p = some (.file text) ∧ parse text = some (.arr rows) ∧ rows.length = certs.length ∧
    ∀ (i : Nat) row cert, rows[i]? = some row → certs[i]? = some cert → ∃ x, row = .arr [.str x] ∧ b64dec x = some (certJson cert)

/-- The round at the end of a period, run from `s`, posts a proof. -/
def Posts (t : Instant) (s : LoggerState) : Prop := ∃ s', loggerRound X c t s = some s' ∧ s'.sentPOIs ≠ s.sentPOIs

/-- No round of this history posts a proof. -/
def NoPosts (s : LoggerState) (evs : List LoggerEvent) : Prop :=
  ∀ a t b s1, evs = a ++ .finish t :: b → loggerRun X c s a = some s1 → ¬ Posts X c t s1

/-! ### One round -/

variable {certJson S}

theorem saveCerts_spec {fs : FS} {path : Str} (pool : CertPool) (hw : writable fs (resolve S.cwd path)) :
    HoldsCerts certJson (saveCerts certJson S path pool fs) (resolve S.cwd path) pool.certs ∧
    writable (saveCerts certJson S path pool fs) (resolve S.cwd path) ∧
    ∀ q, q ≠ resolve S.cwd path → (saveCerts certJson S path pool fs).get q = fs.get q := by
  have hspec := fun q => writeData_spec (c := dataText (certsJson certJson pool.getCerts)) hw q
  have hf : saveCerts certJson S path pool fs = (writeData S fs path (some (dataText (certsJson certJson pool.getCerts)))).1 := rfl
  rw [← hf] at hspec
  refine ⟨⟨_, (pool.certs.map fun c => Json.arr [.str (b64enc (certJson c))]), by rw [hspec, if_pos rfl], ?_, by simp, ?_⟩, ⟨hw.1, ?_, ?_⟩,
    fun q hq => by rw [hspec, if_neg hq]⟩
  · rw [parse_dataText]
    · have : ∀ l : List Cert, cleanElems (l.map fun c => Json.arr [.str (b64enc (certJson c))]) =
          l.map fun c => Json.arr [.str (b64enc (certJson c))] := by
        intro l
        induction l with
        | nil => rfl
        | cons a t ih => simp only [List.map_cons, cleanElems, clean, ih, utf8_b64]
      exact congrArg (fun l => some (Json.arr l)) (this pool.certs)
    · exact numOkElems_map _ _ fun _ _ => ⟨trivial, trivial⟩
  · intro i row cert h1 h2
    rw [List.getElem?_map, h2] at h1
    cases h1
    exact ⟨_, rfl, b64dec_enc _⟩
  · rw [hspec, if_neg ?_]
    · exact hw.2.1
    · intro e
      have := congrArg List.length e
      rw [List.length_dropLast] at this
      have : (resolve S.cwd path).length ≠ 0 := fun h0 => hw.1 (List.length_eq_zero_iff.1 h0)
      omega
  · rw [hspec, if_pos rfl]; simp

theorem sendPOIsDisk_spec {path : Str} (sha : Str → Str) (pool : CertPool) (root : Str) (pois : List POI) (fs : FS)
    (hw : writable fs (resolve S.cwd path)) :
    let r := sendPOIsDisk certJson S path sha pool root pois fs
    r.1 = sendPOIs sha pool root pois ∧ writable r.2 (resolve S.cwd path) ∧
    (∀ q, q ≠ resolve S.cwd path → r.2.get q = fs.get q) ∧ (r.1 = some [] → r.2 = fs) ∧
    (∀ x l, r.1 = some (x :: l) → HoldsCerts certJson r.2 (resolve S.cwd path) pool.certs) ∧
    (HoldsCerts certJson fs (resolve S.cwd path) pool.certs → HoldsCerts certJson r.2 (resolve S.cwd path) pool.certs) := by
  induction pois generalizing fs with
  | nil => exact ⟨rfl, hw, fun _ _ => rfl, fun _ => rfl, (fun x l h => nomatch h), id⟩
  | cons p t ih =>
    simp only [sendPOIsDisk, sendPOIs]
    by_cases hl : p.subjectKeyId.length ≠ 0
    · simp only [if_pos hl]
      rcases hg : pool.getBySKI p.subjectKeyId with (_ | cert) | _
      · exact ⟨rfl, hw, fun _ _ => rfl, fun _ => rfl, (fun x l h => nomatch h), id⟩
      · simp only
        by_cases hv : verifyPOI sha root p.poi cert = true
        · simp only [if_pos hv]
          obtain ⟨s1, s2, s3⟩ := saveCerts_spec (certJson := certJson) pool hw
          obtain ⟨i1, i2, i3, i4, i5, i6⟩ := ih _ s2
          refine ⟨by simp only [i1], i2, fun q hq => (i3 q hq).trans (s3 q hq), ?_, fun _ _ _ => i6 s1, fun _ => i6 s1⟩
          intro h
          obtain ⟨a, _, ha⟩ := Option.map_eq_some_iff.1 h
          cases ha
        · rw [if_neg hv, if_neg hv]
          exact ⟨rfl, hw, fun _ _ => rfl, fun _ => rfl, (fun x l h => nomatch h), id⟩
      · exact ⟨rfl, hw, fun _ _ => rfl, fun _ => rfl, (fun x l h => nomatch h), id⟩
    · simp only [if_neg hl]
      exact ih fs hw

theorem loggerRoundDisk_spec {path : Str} (t : Instant) (s : LoggerState) (fs : FS) (hw : writable fs (resolve S.cwd path)) :
    let r := loggerRoundDisk X certJson S path c t s fs
    r.1 = loggerRound X c t s ∧ writable r.2 (resolve S.cwd path) ∧ (∀ q, q ≠ resolve S.cwd path → r.2.get q = fs.get q) ∧
    (∀ s', r.1 = some s' → (s'.sentPOIs = s.sentPOIs → r.2 = fs) ∧
      (s'.sentPOIs ≠ s.sentPOIs → HoldsCerts certJson r.2 (resolve S.cwd path) s.pool.certs)) := by
  unfold loggerRoundDisk loggerRound
  simp only
  cases hb : buildMerkle X c t s.pool.getCerts (loggerNextNum t) with
  | none => exact ⟨rfl, hw, fun _ _ => rfl, fun _ h => nomatch h⟩
  | some b =>
    cases hc : s.pool.getCerts with
    | nil => exact ⟨rfl, hw, fun _ _ => rfl, fun _ h => nomatch h⟩
    | cons c0 l =>
      simp only
      cases hf : buildMerkle X c t (c0 :: l ++ [c0]) (loggerNextNum t) with
      | none => exact ⟨rfl, hw, fun _ _ => rfl, fun _ h => nomatch h⟩
      | some f =>
        simp only
        obtain ⟨i1, i2, i3, i4, i5, _⟩ := sendPOIsDisk_spec (certJson := certJson) (S := S) (path := path) L.sha256 s.pool b.root b.pois fs hw
        generalize sendPOIsDisk certJson S path L.sha256 s.pool b.root b.pois fs = r at *
        refine ⟨?_, i2, i3, ?_⟩
        · rw [i1]
          cases sendPOIs L.sha256 s.pool b.root b.pois <;> rfl
        · intro s' hs'
          obtain ⟨sent, h1, rfl⟩ := Option.map_eq_some_iff.1 hs'
          constructor
          · intro h
            cases sent with
            | nil => exact i4 h1
            | cons x l =>
              have := congrArg List.length h
              simp at this
          · intro h
            cases sent with
            | nil => simp at h
            | cons x l => exact i5 x l h1

/-! ### The run -/

theorem loggerRunDisk_spec {path : Str} (evs : List LoggerEvent) (s : LoggerState) (fs : FS) (hw : writable fs (resolve S.cwd path)) :
    let r := loggerRunDisk X certJson S path c s fs evs
    r.1 = loggerRun X c s evs ∧ writable r.2 (resolve S.cwd path) ∧ (∀ q, q ≠ resolve S.cwd path → r.2.get q = fs.get q) ∧
    (∀ s', r.1 = some s' → NoPosts X c s evs → r.2 = fs) := by
  induction evs generalizing s fs with
  | nil => exact ⟨rfl, hw, fun _ _ => rfl, fun _ _ _ => rfl⟩
  | cons e t ih =>
    have other : ∀ e : LoggerEvent, (∀ i, e ≠ .finish i) →
        loggerRunDisk X certJson S path c s fs (e :: t) = match loggerStep X c s e with
          | none => (none, fs)
          | some s => loggerRunDisk X certJson S path c s fs t := by
      intro e he
      simp only [loggerRunDisk]
      cases e with
      | finish i => exact absurd rfl (he i)
      | precert b => cases loggerStep X c s (.precert b) <;> rfl
      | request i => cases loggerStep X c s (.request i) <;> rfl
    have tailNoPosts : ∀ s1, loggerStep X c s e = some s1 → NoPosts X c s (e :: t) → NoPosts X c s1 t := by
      intro s1 h1 hq a i b s2 hs h2
      refine hq (e :: a) i b s2 (by rw [hs]; rfl) ?_
      simp only [loggerRun, h1]
      exact h2
    by_cases hf : ∃ i, e = .finish i
    · obtain ⟨i, rfl⟩ := hf
      obtain ⟨r1, r2, r3, r4⟩ := loggerRoundDisk_spec X c (certJson := certJson) (S := S) (path := path) i s fs hw
      simp only [loggerRunDisk, loggerRun, loggerStep]
      rw [← r1]
      generalize hr : loggerRoundDisk X certJson S path c i s fs = r at *
      obtain ⟨o, fs1⟩ := r
      cases o with
      | none => exact ⟨rfl, r2, r3, fun _ h => nomatch h⟩
      | some s1 =>
        obtain ⟨i1, i2, i3, i4⟩ := ih s1 fs1 r2
        refine ⟨i1, i2, fun q hq => (i3 q hq).trans (r3 q hq), ?_⟩
        intro s' hs' hq
        have h1 : loggerRound X c i s = some s1 := r1.symm
        rw [i4 s' hs' (tailNoPosts s1 h1 hq)]
        refine (r4 s1 rfl).1 ?_
        have hnp := hq [] i t s rfl rfl
        exact Decidable.byContradiction fun hne => hnp ⟨s1, h1, hne⟩
    · have hne : ∀ i, e ≠ .finish i := fun i h => hf ⟨i, h⟩
      rw [other e hne]
      simp only [loggerRun]
      cases h1 : loggerStep X c s e with
      | none => exact ⟨rfl, hw, fun _ _ => rfl, fun _ h => nomatch h⟩
      | some s1 =>
        obtain ⟨i1, i2, i3, i4⟩ := ih s1 fs hw
        exact ⟨i1, i2, i3, fun s' hs' hq => i4 s' hs' (tailNoPosts s1 h1 hq)⟩

theorem loggerRunDisk_append {path : Str} (a b : List LoggerEvent) (s s1 : LoggerState) (fs fs1 : FS)
    (h : loggerRunDisk X certJson S path c s fs a = (some s1, fs1)) :
    loggerRunDisk X certJson S path c s fs (a ++ b) = loggerRunDisk X certJson S path c s1 fs1 b := by
  induction a generalizing s fs with
  | nil => cases h; rfl
  | cons e t ih =>
    simp only [List.cons_append, loggerRunDisk] at h ⊢
    split at h
    · cases h
    · next s2 fs2 h2 => exact ih s2 fs2 h

/-- C149 (what holds): on a disk where the path can be written, a history of a logger ends with the certificates of the last round
that posted a proof in the file; if no round did, the disk is as it was found. Nothing else on the disk changes. -/
theorem C149_logger_file_partial (path : Str) (fs : FS) (hw : writable fs (resolve S.cwd path)) (evs : List LoggerEvent)
    (s s' : LoggerState) (hrun : loggerRun X c s evs = some s') :
    let r := loggerRunDisk X certJson S path c s fs evs
    r.1 = some s' ∧ (∀ q, q ≠ resolve S.cwd path → r.2.get q = fs.get q) ∧ (NoPosts X c s evs → r.2 = fs) ∧
    (∀ a t b s1 s2, evs = a ++ .finish t :: b → loggerRun X c s a = some s1 → Posts X c t s1 → loggerRound X c t s1 = some s2 →
      NoPosts X c s2 b → HoldsCerts certJson r.2 (resolve S.cwd path) s1.pool.certs) := by
  intro r
  obtain ⟨i1, _, i3, i4⟩ := loggerRunDisk_spec X c (certJson := certJson) (S := S) (path := path) evs s fs hw
  have hr : r.1 = some s' := i1.trans hrun
  refine ⟨hr, i3, i4 s' hr, ?_⟩
  rintro a t b s1 s2 rfl ha ⟨s2', h2', hpost⟩ h2 hq
  rw [h2] at h2'
  cases h2'
  obtain ⟨j1, j2, _, _⟩ := loggerRunDisk_spec X c (certJson := certJson) (S := S) (path := path) a s fs hw
  have ha' : loggerRunDisk X certJson S path c s fs a = (some s1, (loggerRunDisk X certJson S path c s fs a).2) :=
    Prod.ext (j1.trans ha) rfl
  have e1 := loggerRunDisk_append X c (certJson := certJson) (S := S) a (.finish t :: b) s s1 fs _ ha'
  generalize (loggerRunDisk X certJson S path c s fs a).2 = fs1 at *
  obtain ⟨k1, k2, _, k4⟩ := loggerRoundDisk_spec X c (certJson := certJson) (S := S) (path := path) t s1 fs1 j2
  have ht : loggerRoundDisk X certJson S path c t s1 fs1 = (some s2, (loggerRoundDisk X certJson S path c t s1 fs1).2) :=
    Prod.ext (k1.trans h2) rfl
  have e2 : loggerRunDisk X certJson S path c s1 fs1 (.finish t :: b) =
      loggerRunDisk X certJson S path c s2 (loggerRoundDisk X certJson S path c t s1 fs1).2 b := by
    simp only [loggerRunDisk]
    rw [ht]
  have hr2 : r = loggerRunDisk X certJson S path c s2 (loggerRoundDisk X certJson S path c t s1 fs1).2 b := e1.trans e2
  have hold := (k4 s2 (k1.trans h2)).2 hpost
  obtain ⟨m1, _, _, m4⟩ := loggerRunDisk_spec X c (certJson := certJson) (S := S) (path := path) b s2 _ k2
  rw [hr2] at hr ⊢
  rw [m4 s' hr hq]
  exact hold

/-- C149 fails for a context as `InitializeLoggerContext` makes it: `StoragePath` is empty, and whatever the logger does, nothing
is written. -/
theorem C149_violated_no_path (fs : FS) (hcwd : fs.get S.cwd = some .dir) (evs : List LoggerEvent) (s : LoggerState) :
    (loggerRunDisk X certJson S [] c s fs evs).2 = fs := by
  have hput : ∀ c, put S fs [] c = (fs, false) := by
    intro c
    unfold put
    simp only
    rw [if_neg]
    rintro ⟨_, _, h3⟩
    exact h3 hcwd
  have hsave : ∀ pool, saveCerts certJson S [] pool fs = fs := by
    intro pool
    unfold saveCerts writeData
    split <;> simp [hput]
  have hsend : ∀ pool root pois, (sendPOIsDisk certJson S [] L.sha256 pool root pois fs).2 = fs := by
    intro pool root pois
    induction pois with
    | nil => rfl
    | cons p t ih =>
      simp only [sendPOIsDisk]
      split
      · split
        · split
          · simp only [hsave, ih]
          · rfl
        · rfl
      · exact ih
  have hround : ∀ t s, (loggerRoundDisk X certJson S [] c t s fs).2 = fs := by
    intro t s
    unfold loggerRoundDisk
    simp only
    split
    · rfl
    · split
      · rfl
      · split
        · rfl
        · exact hsend _ _ _
  induction evs generalizing s with
  | nil => rfl
  | cons e t ih =>
    have key : ∀ r : Option LoggerState × FS, r.2 = fs → (match r with
        | (none, fs) => (none, fs)
        | (some s, fs) => loggerRunDisk X certJson S [] c s fs t : Option LoggerState × FS).2 = fs := by
      rintro ⟨o, f⟩ hf
      cases hf
      cases o with
      | none => rfl
      | some s1 => exact ih s1
    simp only [loggerRunDisk]
    cases e with
    | finish i => exact key _ (hround i s)
    | precert b => exact key (loggerStep X c s (.precert b), fs) rfl
    | request i => exact key (loggerStep X c s (.request i), fs) rfl

/-! ### Examples -/

namespace Ref

/-- A disk with a directory for the logger. -/
def logFileDisk : FS := (GoMap.empty.set [] .dir).set [go!"Logger_data"] .dir

/-- Two certificates, a round, and a request. -/
def logDay : List LoggerEvent := [.precert leafA.raw, .precert leafB.raw, .finish at58, .request at59]

theorem logDay_facts : ∃ s1 s2 s', loggerRun xlib logConf initLogger [.precert leafA.raw, .precert leafB.raw] = some s1 ∧
    loggerRound xlib logConf at58 s1 = some s2 ∧ s2.sentPOIs ≠ s1.sentPOIs ∧ s1.pool.certs.length = 2 ∧
    loggerRun xlib logConf initLogger logDay = some s' := by
  have h : ((loggerRun xlib logConf initLogger [.precert leafA.raw, .precert leafB.raw]).bind fun s =>
      (loggerRound xlib logConf at58 s).map fun s' => (s.pool.certs.length, s'.sentPOIs.length, s.sentPOIs.length)) = some (2, 2, 0) := by
    decide +kernel
  obtain ⟨s1, h1, h⟩ := Option.bind_eq_some_iff.1 h
  obtain ⟨s2, h2, h⟩ := Option.map_eq_some_iff.1 h
  obtain ⟨h3, h⟩ := Prod.mk.inj h
  obtain ⟨h4, h5⟩ := Prod.mk.inj h
  refine ⟨s1, s2, (requestSTH logConf at59 s2).2, h1, h2, ?_, h3, ?_⟩
  · intro e; rw [e, h5] at h4; cases h4
  · have e : logDay = [.precert leafA.raw, .precert leafB.raw] ++ [.finish at58, .request at59] := rfl
    have e2 : ∀ s, loggerRun xlib logConf s [.finish at58, .request at59] =
        (loggerRound xlib logConf at58 s).bind fun s2 => some (requestSTH logConf at59 s2).2 := by
      intro s
      simp only [loggerRun, loggerStep]
      cases loggerRound xlib logConf at58 s <;> rfl
    rw [e, loggerRun_append, h1, Option.bind_some, e2, h2]
    rfl

/-- The file after that day holds two certificates. -/
example : ∃ certs : List Cert, certs.length = 2 ∧ HoldsCerts (fun c => c.raw)
    (loggerRunDisk xlib (fun c => c.raw) os (go!"Logger_data/certs.json") logConf initLogger logFileDisk logDay).2
    [go!"Logger_data", go!"certs.json"] certs := by
  obtain ⟨s1, s2, s', h1, h2, h3, h4, h5⟩ := logDay_facts
  have hp : resolve os.cwd (go!"Logger_data/certs.json") = [go!"Logger_data", go!"certs.json"] := by decide +kernel
  obtain ⟨_, _, _, h⟩ := C149_logger_file_partial xlib logConf (certJson := fun c => c.raw) (S := os) (go!"Logger_data/certs.json")
    logFileDisk (by rw [hp]; decide +kernel) logDay initLogger s' h5
  refine ⟨s1.pool.certs, h4, ?_⟩
  have := h [.precert leafA.raw, .precert leafB.raw] at58 [.request at59] s1 s2 rfl h1 ⟨s2, h2, h3⟩ h2 (by
    intro a t b s3 he _
    cases a with
    | nil => cases he
    | cons x a =>
      rw [List.cons_append, List.cons.injEq] at he
      cases a <;> cases he.2)
  rwa [hp] at this

/-- With the path of a new context nothing is written. -/
example : (loggerRunDisk xlib (fun c => c.raw) os [] logConf initLogger logFileDisk logDay).2 = logFileDisk :=
  C149_violated_no_path xlib logConf logFileDisk (by decide +kernel) logDay initLogger

end Ref
end CTng
