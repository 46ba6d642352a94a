import Verif.Props.Honest
/-
C77: from the pre-certificate to the client. A CA issues, a logger logs, the CA embeds tree head and proof and signs, a
client checks.
-/
set_option autoImplicit false

namespace CTng
open Client

/-! ### The pool of a CA -/

theorem specLookup_replaceFirst (l : List PEntry) (k k' : Str) (x : Cert) (hk' : k' ≠ []) :
    specLookup (replaceFirst k' x l) k = if k = k' then (specLookup l k).map (fun _ => x) else specLookup l k := by
  unfold specLookup
  by_cases hk : k = []
  · simp only [hk, if_true, Option.map_none, ite_self]
  · simp only [hk, if_false]
    induction l with
    | nil => simp [replaceFirst]
    | cons e t ih =>
      simp only [replaceFirst]
      by_cases he : e.ski = k'
      · by_cases hkk : k = k'
        · simp [he, hkk]
        · have : ¬ e.ski = k := fun h => hkk (h.symm.trans he)
          simp [he, hkk, List.find?_cons]
          have h2 : ¬ k' = k := fun h => hkk h.symm
          simp [h2]
      · by_cases hek : e.ski = k
        · have hkk : ¬ k = k' := fun h => he (hek.trans h)
          simp [he, hek, hkk, List.find?_cons]
        · simp only [he, if_false, List.find?_cons, hek, decide_false]
          exact ih

/-- The pool of a state is in order. -/
def Rep (p : CertPool) : Prop := ∃ l, Represents p l

theorem rep_new : Rep CertPool.new := ⟨[], represents_new⟩

theorem rep_update {p : CertPool} (h : Rep p) (k : Str) (x : Cert) (hk : k ≠ []) :
    ∃ p', p.updateBySKI k x = .ok p' ∧ Rep p' ∧ ∀ k', p'.getBySKI k' =
      if k' = k then (match p.getBySKI k with | .ok (some _) => .ok (some x) | r => r) else p.getBySKI k' := by
  obtain ⟨l, hl⟩ := h
  obtain ⟨p', h1, h2⟩ := poolOp_spec hl (.update k x)
  refine ⟨p', h1, ⟨_, h2⟩, ?_⟩
  intro k'
  rw [getBySKI_spec h2, getBySKI_spec hl, getBySKI_spec hl]
  simp only [specOp, if_neg hk, specLookup_replaceFirst l k' k x hk]
  by_cases hkk : k' = k
  · subst hkk
    simp only [if_true]
    cases specLookup l k' <;> rfl
  · simp only [if_neg hkk]

/-- Adding certificates none of whose subjects occurs twice. -/
theorem addAll_rep (cs : List Cert) (p : CertPool) (l : List PEntry) (h : Represents p l)
    (hn : (l.map (·.name) ++ cs.map (·.rawSubject)).Nodup) :
    Represents (addAll p cs) (l ++ cs.map fun c => ⟨c.subjectKeyId, c.rawSubject, c⟩) := by
  induction cs generalizing p l with
  | nil => simpa [addAll] using h
  | cons x t ih =>
    obtain ⟨p', h1, h2⟩ := poolOp_spec h (.add x)
    have hx : l.any (fun e => decide (e.name = x.rawSubject) && decide (e.cert.raw = x.raw)) = false := by
      rw [List.any_eq_false]
      intro e he
      simp only [Bool.and_eq_true, decide_eq_true_eq, not_and]
      intro hname
      rw [List.nodup_append] at hn
      exact absurd hname (hn.2.2 e.name (List.mem_map_of_mem he) x.rawSubject (by simp))
    simp only [specOp, hx, Bool.false_eq_true, if_false] at h2
    have h1' : p.addCert x = .ok p' := h1
    simp only [addAll, h1']
    have := ih p' (l ++ [⟨x.subjectKeyId, x.rawSubject, x⟩]) h2 (by simpa [List.append_assoc] using hn)
    simpa [List.append_assoc] using this

theorem addAll_Rep (cs : List Cert) (p : CertPool) (h : Rep p) : Rep (addAll p cs) := by
  induction cs generalizing p with
  | nil => exact h
  | cons x t ih =>
    obtain ⟨l, hl⟩ := h
    obtain ⟨p', h1, h2⟩ := poolOp_spec hl (.add x)
    have h1' : p.addCert x = .ok p' := h1
    simp only [addAll, h1']
    exact ih p' ⟨_, h2⟩

section CA
variable {L : Lib} {X : XLib} (c : CAConf L) (root : Cert)

theorem poi_rep {s : CAState} (h : Rep s.pool) (p : POI) : Rep (caReceivePOI X p s).pool ∧
    ∀ k x, s.pool.getBySKI k = .ok (some x) → (caReceivePOI X p s).pool.getBySKI k =
      .ok (some (if p.subjectKeyId = k then x.updateExt X ⟨readObj s.sthStorage p.loggerID, p⟩ else x)) := by
  unfold caReceivePOI
  simp only
  cases hg : s.pool.getBySKI p.subjectKeyId with
  | panic =>
    simp only
    refine ⟨h, fun k x hk => ?_⟩
    by_cases hpk : p.subjectKeyId = k
    · rw [hpk, hk] at hg; cases hg
    · rw [if_neg hpk]; exact hk
  | ok o =>
    cases o with
    | none =>
      simp only
      refine ⟨h, fun k x hk => ?_⟩
      by_cases hpk : p.subjectKeyId = k
      · rw [hpk, hk] at hg; cases hg
      · rw [if_neg hpk]; exact hk
    | some target =>
      simp only
      have hne : p.subjectKeyId ≠ [] := by
        intro h0
        obtain ⟨l, hl⟩ := h
        rw [getBySKI_spec hl, h0, specLookup, if_pos rfl] at hg
        cases hg
      obtain ⟨p', h1, h2, h3⟩ := rep_update h p.subjectKeyId
        (target.updateExt X ⟨readObj s.sthStorage p.loggerID, p⟩) hne
      rw [h1]
      refine ⟨h2, fun k x hk => ?_⟩
      simp only [h3, hg]
      by_cases hpk : p.subjectKeyId = k
      · subst hpk
        rw [hk] at hg
        cases hg
        simp
      · rw [if_neg (fun e => hpk e.symm), if_neg hpk]; exact hk

theorem caStep_rep {s s' : CAState} (h : Rep s.pool) (e : CAEvent) (hs : caStep X c root s e = some s') : Rep s'.pool := by
  cases e with
  | start pub =>
    simp only [caStep, Option.some.injEq] at hs; subst hs
    exact addAll_Rep _ _ h
  | finish t pos =>
    obtain ⟨_, _, _, _, rfl⟩ := endRound_some X c hs
    exact rep_new
  | request t =>
    simp only [caStep, Option.some.injEq] at hs
    obtain ⟨n, hn⟩ := request_frame c t s
    rw [hn] at hs; subst hs; exact h
  | sth g =>
    simp only [caStep, Option.some.injEq] at hs
    obtain ⟨n, hn⟩ := sth_frame c g s
    rw [hn] at hs; subst hs; exact h
  | poi p =>
    simp only [caStep, Option.some.injEq] at hs; subst hs
    exact (poi_rep h p).1
  | revoke i =>
    simp only [caStep, Option.some.injEq] at hs; subst hs; exact h

/-! ### Embedding -/

/-- What a CA may receive between issuing and signing for the theorem about logger `lg`, its tree head `g` and its proof `p`
for key id `k`: messages in the domain of the JSON contract; those that name `lg` come from `lg`. -/
def RoundEvent (lg k : Str) (g : GossipObj) (p : POI) : CAEvent → Prop
  | .start _ => False
  | .finish _ _ => False
  | .request _ => True
  | .revoke _ => True
  | .sth g' => g'.Plain ∧ (g'.signer = lg → g' = g)
  | .poi q => q.Plain ∧ (q.loggerID = lg → q.subjectKeyId = k → q = p)

/-- Tree heads held by the CA. -/
structure HeldSTHs (lg : Str) (g : GossipObj) (s : CAState) : Prop where
  plain : ∀ k g', s.sthStorage.get k = some g' → g'.Plain
  signer : ∀ k g', s.sthStorage.get k = some g' → g'.signer = k ∧ g'.verify c.crypto = .ok
  from_lg : ∀ g', s.sthStorage.get lg = some g' → g' = g

/-- A certificate `x` in the pool that was issued as the pre-certificate `y`. -/
structure GrownCert (X : XLib) (y x : Cert) (lg : Str) (g : GossipObj) (p : POI) : Prop where
  good : GoodExt X x
  subject : x.rawSubject = y.rawSubject
  ski : x.subjectKeyId = y.subjectKeyId
  key : x.publicKey = y.publicKey
  rid : x.rid X = y.rid X
  entries : ∀ i ∈ (x.parseExt X).loggers, (i.sth = GossipObj.zero ∨ i.sth.verify c.crypto = .ok) ∧
    (i.sth.signer = lg → i = ⟨g, p⟩)

theorem updateExt_fields (x : Cert) (n : LoggerInfo) : (x.updateExt X n).rawSubject = x.rawSubject ∧
    (x.updateExt X n).subjectKeyId = x.subjectKeyId ∧ (x.updateExt X n).publicKey = x.publicKey := by
  unfold Cert.updateExt
  simp only
  split <;> exact ⟨rfl, rfl, rfl⟩

variable {c}

theorem grownCert_update (hX : X.Laws) {y x : Cert} {lg : Str} {g : GossipObj} {p : POI} (h : GrownCert c X y x lg g p)
    {n : LoggerInfo} (hn : n.Plain) (hv : n.sth = GossipObj.zero ∨ n.sth.verify c.crypto = .ok)
    (hlg : n.sth.signer = lg → n = ⟨g, p⟩) :
    GrownCert c X y (x.updateExt X n) lg g p ∧ (∀ i ∈ (x.parseExt X).loggers, i ∈ ((x.updateExt X n).parseExt X).loggers) ∧
      (n.sth.signer = lg → n ∈ ((x.updateExt X n).parseExt X).loggers) := by
  obtain ⟨f1, f2, f3⟩ := updateExt_fields (X := X) x n
  have e := updateExt_parse hX h.good.1 h.good.2.1 hn
  have hm : ∀ i, i ∈ mergeInfo (x.parseExt X).loggers n → i ∈ (x.parseExt X).loggers ∨ i = n := by
    intro i hi
    unfold mergeInfo at hi
    split at hi
    · exact .inl hi
    · simpa using hi
  refine ⟨⟨goodExt_update hX h.good hn, f1.trans h.subject, f2.trans h.ski, f3.trans h.key, ?_, ?_⟩, ?_, ?_⟩
  · unfold Cert.rid; rw [e]; exact h.rid
  · intro i hi
    rw [e] at hi
    rcases hm i hi with hi | rfl
    · exact h.entries i hi
    · exact ⟨hv, hlg⟩
  · intro i hi
    rw [e]
    simp only [mergeInfo]
    split
    · exact hi
    · exact List.mem_append_left _ hi
  · intro hs
    rw [e]
    simp only [mergeInfo]
    split
    · rename_i hin
      obtain ⟨i, hi, hsi⟩ := List.mem_map.1 hin
      have := (h.entries i hi).2 (hsi.trans hs)
      rw [hlg hs, ← this]; exact hi
    · simp

variable (c)

/-- One message of the round. -/
theorem round_step (hX : X.Laws) {lg k : Str} {g : GossipObj} {p : POI} (hlg : lg ≠ []) {s s' : CAState} (e : CAEvent)
    (he : RoundEvent lg k g p e) (hs : caStep X c root s e = some s') {y x : Cert} (hr : Rep s.pool)
    (hh : HeldSTHs c lg g s) (hk : s.pool.getBySKI k = .ok (some x)) (hx : GrownCert c X y x lg g p) :
    Rep s'.pool ∧ HeldSTHs c lg g s' ∧ (s.sthStorage.get lg = some g → s'.sthStorage.get lg = some g) ∧
      ∃ x', s'.pool.getBySKI k = .ok (some x') ∧ GrownCert c X y x' lg g p ∧
        (∀ i ∈ (x.parseExt X).loggers, i ∈ (x'.parseExt X).loggers) ∧
        (e = .poi p → p.subjectKeyId = k → p.loggerID = lg → s.sthStorage.get lg = some g → g.signer = lg →
          ⟨g, p⟩ ∈ (x'.parseExt X).loggers) := by
  have hrep := caStep_rep c root hr e hs
  cases e with
  | start pub => exact absurd he id
  | finish t pos => exact absurd he id
  | request t =>
    simp only [caStep, Option.some.injEq] at hs
    obtain ⟨n, hn⟩ := request_frame c t s
    rw [hn] at hs; subst hs
    exact ⟨hrep, ⟨hh.plain, hh.signer, hh.from_lg⟩, id, x, hk, hx, fun _ h => h, fun h => by cases h⟩
  | revoke i =>
    simp only [caStep, Option.some.injEq] at hs
    subst hs
    exact ⟨hrep, ⟨hh.plain, hh.signer, hh.from_lg⟩, id, x, hk, hx, fun _ h => h, fun h => by cases h⟩
  | sth g' =>
    simp only [caStep, Option.some.injEq, caReceiveSTH] at hs
    split at hs
    · rename_i hv
      subst hs
      refine ⟨hrep, ⟨?_, ?_, ?_⟩, ?_, x, hk, hx, fun _ h => h, fun h => by cases h⟩
      · intro k' g'' h'
        rcases get_set_cases h' with ⟨rfl, rfl⟩ | h'
        · exact he.1
        · exact hh.plain k' g'' h'
      · intro k' g'' h'
        rcases get_set_cases h' with ⟨rfl, rfl⟩ | h'
        · exact ⟨rfl, hv⟩
        · exact hh.signer k' g'' h'
      · intro g'' h'
        rcases get_set_cases h' with ⟨h1, rfl⟩ | h'
        · exact he.2 h1.symm
        · exact hh.from_lg g'' h'
      · intro hg
        simp only
        by_cases hsg : lg = g'.signer
        · rw [hsg, GoMap.get_set_self, he.2 hsg.symm]
        · rw [GoMap.get_set, if_neg hsg]; exact hg
    · subst hs
      exact ⟨hrep, hh, id, x, hk, hx, fun _ h => h, fun h => by cases h⟩
  | poi q =>
    simp only [caStep, Option.some.injEq] at hs
    subst hs
    obtain ⟨pool, hpool⟩ := poi_frame X q s
    have hst : (caReceivePOI X q s).sthStorage = s.sthStorage := by rw [hpool]
    refine ⟨hrep, ⟨by rw [hst]; exact hh.plain, by rw [hst]; exact hh.signer, by rw [hst]; exact hh.from_lg⟩,
      by rw [hst]; exact id, ?_⟩
    have hlook := (poi_rep (X := X) hr q).2 k x hk
    by_cases hqk : q.subjectKeyId = k
    · rw [if_pos hqk] at hlook
      have hpl : (readObj s.sthStorage q.loggerID).Plain := by
        unfold readObj
        cases hgk : s.sthStorage.get q.loggerID with
        | none => exact zero_plain
        | some g' => exact hh.plain _ g' hgk
      have hv : readObj s.sthStorage q.loggerID = GossipObj.zero ∨ (readObj s.sthStorage q.loggerID).verify c.crypto = .ok := by
        unfold readObj
        cases hgk : s.sthStorage.get q.loggerID with
        | none => exact .inl rfl
        | some g' => exact .inr (hh.signer _ g' hgk).2
      have hl : (readObj s.sthStorage q.loggerID).signer = lg → (⟨readObj s.sthStorage q.loggerID, q⟩ : LoggerInfo) = ⟨g, p⟩ := by
        unfold readObj
        cases hgk : s.sthStorage.get q.loggerID with
        | none => intro h0; exact absurd h0.symm hlg
        | some g' =>
          intro h0
          have h1 : q.loggerID = lg := (hh.signer _ g' hgk).1.symm.trans h0
          rw [h1] at hgk
          simp only [Option.getD_some]
          rw [hh.from_lg g' hgk, he.2 h1 hqk]
      obtain ⟨g1, g2, g3⟩ := grownCert_update hX hx (n := ⟨readObj s.sthStorage q.loggerID, q⟩) ⟨hpl, he.1⟩ hv hl
      refine ⟨_, hlook, g1, g2, ?_⟩
      intro hq hpk hpl' hg hsg
      cases hq
      have hread : readObj s.sthStorage p.loggerID = g := by unfold readObj; rw [hpl', hg]; rfl
      have h3 := g3 (by simp only [hread]; exact hsg)
      rw [hread] at h3 ⊢; exact h3
    · rw [if_neg hqk] at hlook
      refine ⟨x, hlook, hx, fun _ h => h, ?_⟩
      intro hq hpk
      cases hq
      exact absurd hpk hqk

theorem round_run (hX : X.Laws) {lg k : Str} {g : GossipObj} {p : POI} (hlg : lg ≠ []) (evs : List CAEvent)
    (he : ∀ e ∈ evs, RoundEvent lg k g p e) {s s' : CAState} (hs : caRun X c root s evs = some s') {y x : Cert}
    (hr : Rep s.pool) (hh : HeldSTHs c lg g s) (hk : s.pool.getBySKI k = .ok (some x)) (hx : GrownCert c X y x lg g p) :
    Rep s'.pool ∧ HeldSTHs c lg g s' ∧ (s.sthStorage.get lg = some g → s'.sthStorage.get lg = some g) ∧
      ∃ x', s'.pool.getBySKI k = .ok (some x') ∧ GrownCert c X y x' lg g p ∧
        (∀ i ∈ (x.parseExt X).loggers, i ∈ (x'.parseExt X).loggers) := by
  induction evs generalizing s x with
  | nil =>
    simp only [caRun, Option.some.injEq] at hs
    subst hs
    exact ⟨hr, hh, id, x, hk, hx, fun _ h => h⟩
  | cons e t ih =>
    simp only [caRun] at hs
    split at hs
    · cases hs
    rename_i s1 h1
    obtain ⟨r1, r2, r3, x1, r4, r5, r6, _⟩ := round_step c root hX hlg e (he e (by simp)) h1 hr hh hk hx
    obtain ⟨q1, q2, q3, x2, q4, q5, q6⟩ := ih (fun e' h' => he e' (List.mem_cons_of_mem _ h')) hs r1 r2 r4 r5
    exact ⟨q1, q2, fun h => q3 (r3 h), x2, q4, q5, fun i hi => q6 i (r6 i hi)⟩

/-- The tree head of the logger arrives, later its proof for the certificate: at the end of the round the certificate
carries both, whatever else happens. -/
theorem embedded (hX : X.Laws) {lg k : Str} {g : GossipObj} {p : POI} (hlg : lg ≠ []) (hsg : g.signer = lg)
    (hv : g.verify c.crypto = .ok) (hpk : p.subjectKeyId = k) (hpl : p.loggerID = lg) (a b d : List CAEvent)
    (he : ∀ e ∈ a ++ .sth g :: b ++ .poi p :: d, RoundEvent lg k g p e) {s s' : CAState}
    (hs : caRun X c root s (a ++ .sth g :: b ++ .poi p :: d) = some s') {y x : Cert} (hr : Rep s.pool)
    (hh : HeldSTHs c lg g s) (hk : s.pool.getBySKI k = .ok (some x)) (hx : GrownCert c X y x lg g p) :
    ∃ x', s'.pool.getBySKI k = .ok (some x') ∧ GrownCert c X y x' lg g p ∧ ⟨g, p⟩ ∈ (x'.parseExt X).loggers := by
  rw [List.append_assoc, caRun_append] at hs
  obtain ⟨s1, h1, hs⟩ := Option.bind_eq_some_iff.1 hs
  obtain ⟨a1, a2, _, x1, a4, a5, _⟩ := round_run c root hX hlg a (fun e h => he e (by simp [h])) h1 hr hh hk hx
  simp only [List.cons_append, caRun, caStep] at hs
  have heg : RoundEvent lg k g p (.sth g) := he _ (by simp)
  obtain ⟨b1, b2, _, x2, b4, b5, _, _⟩ := round_step c root hX hlg (.sth g) heg rfl a1 a2 a4 a5
  have hget : (caReceiveSTH c g s1).sthStorage.get lg = some g := by
    unfold caReceiveSTH
    rw [if_pos hv, ← hsg, GoMap.get_set_self]
  rw [caRun_append] at hs
  obtain ⟨s3, h3, hs⟩ := Option.bind_eq_some_iff.1 hs
  obtain ⟨c1, c2, c3, x3, c4, c5, _⟩ := round_run c root hX hlg b (fun e h => he e (by simp [h])) h3 b1 b2 b4 b5
  simp only [caRun, caStep] at hs
  obtain ⟨d1, d2, _, x4, d4, d5, _, d7⟩ := round_step c root hX hlg (.poi p) (he _ (by simp)) rfl c1 c2 c4 c5
  obtain ⟨_, _, _, x5, e4, e5, e6⟩ := round_run c root hX hlg d (fun e h => he e (by simp [h])) hs d1 d2 d4 d5
  exact ⟨x5, e4, e5, e6 _ (d7 rfl hpk hpl (c3 hget) hsg)⟩

/-! ### Issuing and signing -/

theorem issueLoop_get (sha : Str → Str) (signer : Str) (pub : Nat → Str) (offset n i counter j : Nat) (hj : j < n) :
    (issueLoop X sha root signer pub offset n i counter).1[j]? =
      some (signCertificate X sha (genratePreCert X (counter + j) signer (dummySubject (i + j) offset) false).1 root (pub (i + j))) := by
  induction n generalizing i counter j with
  | zero => omega
  | succ n ih =>
    cases j with
    | zero => rfl
    | succ j =>
      simp only [issueLoop, List.getElem?_cons_succ]
      have := ih (i + 1) (counter + 1) j (by omega)
      rw [show counter + (j + 1) = counter + 1 + j by omega, show i + (j + 1) = i + 1 + j by omega]
      exact this

/-- The `j`-th certificate of a round that starts with counter `n`. -/
def issuedCert (X : XLib) (c : CAConf L) (root : Cert) (pub : Nat → Str) (n j : Nat) : Cert :=
  signCertificate X L.sha256 (genratePreCert X (n + j) c.signer (dummySubject j n) false).1 root (pub j)

theorem issuedCert_ski (hX : X.Laws) (pub : Nat → Str) (n j : Nat) (h : L.sha256 (pub j) ≠ []) :
    (issuedCert X c root pub n j).subjectKeyId = L.sha256 (pub j) := by
  unfold issuedCert signCertificate
  rw [if_pos (show ((genratePreCert X (n + j) c.signer (dummySubject j n) false).1).subjectKeyId.length = 0 from rfl),
    hX.createSKI _ _ _ h]

theorem issuedCert_subject (hX : X.Laws) (pub pub' : Nat → Str) (n i j : Nat) :
    (issuedCert X c root pub n i).rawSubject = (issuedCert X c root pub' n j).rawSubject ↔ i = j := by
  unfold issuedCert signCertificate
  rw [if_pos (show ((genratePreCert X (n + i) c.signer (dummySubject i n) false).1).subjectKeyId.length = 0 from rfl),
    if_pos (show ((genratePreCert X (n + j) c.signer (dummySubject j n) false).1).subjectKeyId.length = 0 from rfl),
    hX.createRawSubject _ _ _ _ _ _ rfl rfl]
  simp only [genratePreCert, dummySubject, List.append_cancel_left_eq]
  constructor
  · intro h; have := itoa_inj h; omega
  · intro h; rw [h]

/-- After the first part of a round that starts with an empty pool, the pool finds every pre-certificate by its key id, if
the key ids differ. -/
theorem start_lookup (hX : X.Laws) (pub : Nat → Str) (s : CAState) (hr : Rep s.pool) (h0 : s.pool.certs = [])
    (hne : ∀ j, j < c.certPerPeriod → L.sha256 (pub j) ≠ [])
    (hinj : ∀ i j, i < c.certPerPeriod → j < c.certPerPeriod → L.sha256 (pub i) = L.sha256 (pub j) → i = j)
    (j : Nat) (hj : j < c.certPerPeriod) :
    (startRound X c root pub s).pool.getBySKI (L.sha256 (pub j)) =
      .ok (some ((issuedCert X c root pub s.certCounter j).toPrecert X)) := by
  obtain ⟨l, hl⟩ := hr
  have hl0 : l = [] := by
    have := hl.certs
    rw [h0] at this
    exact List.map_eq_nil_iff.1 this.symm
  subst hl0
  let certs := (issueLoop X L.sha256 root c.signer pub s.certCounter c.certPerPeriod 0 s.certCounter).1
  have hlen : certs.length = c.certPerPeriod := issueLoop_length ..
  have hget : ∀ i, i < c.certPerPeriod → certs[i]? = some (issuedCert X c root pub s.certCounter i) := by
    intro i hi
    have := issueLoop_get (X := X) root L.sha256 c.signer pub s.certCounter c.certPerPeriod 0 s.certCounter i hi
    simpa [issuedCert] using this
  have hsub : ∀ x : Cert, (x.toPrecert X).rawSubject = x.rawSubject := fun _ => rfl
  have hnames : ((certs.map (Cert.toPrecert X)).map (·.rawSubject)).Nodup := by
    rw [List.nodup_iff_pairwise_ne, List.pairwise_iff_getElem]
    intro i k hi hk hik
    simp only [List.length_map, hlen] at hi hk
    simp only [List.getElem_map, hsub]
    have e1 := hget i hi
    have e2 := hget k hk
    rw [List.getElem?_eq_getElem (by omega), Option.some.injEq] at e1 e2
    rw [e1, e2]
    intro h
    have := (issuedCert_subject c root hX pub pub s.certCounter i k).1 h
    omega
  have hrep := addAll_rep (certs.map (Cert.toPrecert X)) s.pool [] hl (by simpa using hnames)
  have hpool : (startRound X c root pub s).pool = addAll s.pool (certs.map (Cert.toPrecert X)) := rfl
  rw [hpool, getBySKI_spec hrep, specLookup, if_neg (hne j hj)]
  have hfind : (certs.find? fun x => decide (x.subjectKeyId = L.sha256 (pub j))) =
      some (issuedCert X c root pub s.certCounter j) := by
    rw [List.find?_eq_some_iff_getElem]
    refine ⟨by simp [issuedCert_ski c root hX pub _ j (hne j hj)], j, by omega, ?_, ?_⟩
    · have := hget j hj
      rw [List.getElem?_eq_getElem (by omega), Option.some.injEq] at this
      exact this
    · intro i hi
      have := hget i (by omega)
      rw [List.getElem?_eq_getElem (by omega), Option.some.injEq] at this
      rw [this, issuedCert_ski c root hX pub _ i (hne i (by omega))]
      simp only [Bool.not_eq_true', decide_eq_false_iff_not]
      intro h
      have := hinj i j (by omega) hj h
      omega
  simp only [List.nil_append, List.find?_map, Function.comp_def]
  have h' : certs.find? (fun x => decide ((Cert.toPrecert X x).subjectKeyId = L.sha256 (pub j))) =
      some (issuedCert X c root pub s.certCounter j) := hfind
  rw [h']
  rfl

theorem issuedCert_grownCert (hX : X.Laws) (pub : Nat → Str) (n j : Nat) (hn : n + j < 2 ^ 63) (lg : Str) (g : GossipObj) (p : POI) :
    (issuedCert X c root pub n j).rid X = n + j ∧
    GrownCert c X (issuedCert X c root pub n j) ((issuedCert X c root pub n j).toPrecert X) lg g p := by
  have hrid : (issuedCert X c root pub n j).rid X = n + j := signed_rid hX L.sha256 (n + j) _ _ _ root _ hn
  have hp : CTngExt.Plain ⟨(issuedCert X c root pub n j).rid X, []⟩ := ⟨by rw [hrid]; exact hn, by intro l hl; cases hl⟩
  have e : ((issuedCert X c root pub n j).toPrecert X).parseExt X = ⟨(issuedCert X c root pub n j).rid X, []⟩ := by
    have : ((issuedCert X c root pub n j).toPrecert X).parseExt X = X.decExt (X.encExt ⟨(issuedCert X c root pub n j).rid X, []⟩) := by
      simp [Cert.parseExt, Cert.toPrecert, Cert.rid]
    rw [this, hX.ext _ hp]
  refine ⟨hrid, goodExt_precert hX (by rw [hrid]; exact hn), rfl, rfl, rfl, ?_, ?_⟩
  · unfold Cert.rid; rw [e]; rfl
  · intro i hi; rw [e] at hi; cases hi

/-- Signing keeps the extension, the subject and the key id, and sets the issuer. -/
theorem sign_keeps (hX : X.Laws) (sha : Str → Str) (x : Cert) (h : GoodExt X x) (hs : x.rawSubject ≠ []) (hk : x.subjectKeyId ≠ []) :
    let f := signCertificate X sha (x.forSigning X) root x.publicKey
    f.parseExt X = x.parseExt X ∧ f.rawSubject = x.rawSubject ∧ f.subjectKeyId = x.subjectKeyId ∧ f.issuerCN = root.subjectCN := by
  intro f
  have hf : f = X.createCert (x.forSigning X) root x.publicKey := by
    show signCertificate X sha (x.forSigning X) root x.publicKey = _
    unfold signCertificate
    rw [if_neg]
    show ¬ x.subjectKeyId.length = 0
    simpa using hk
  rw [hf]
  refine ⟨?_, hX.createKeepsSubject _ _ _ hs, hX.createSKI _ _ _ hk, hX.createIssuer _ _ _⟩
  rw [parseExt_eq, hX.createExt]
  simp only [Cert.forSigning, List.filter_append, decide_true, List.filter_cons_of_pos, List.filter_nil,
    List.getLast?_concat]
  exact hX.ext _ h.2.1

/-- The certificate found under a key id in the pool is signed by `SignAllCerts`. -/
theorem signed_of_lookup (sha : Str → Str) (s : CAState) (k : Str) (x : Cert) (h : s.pool.getBySKI k = .ok (some x)) :
    signCertificate X sha (x.forSigning X) root x.publicKey ∈ signAll X sha root s :=
  List.mem_map_of_mem (getBySKI_mem h)

theorem heldSTHs_start (pub : Nat → Str) (s : CAState) (lg : Str) (g : GossipObj) :
    HeldSTHs c lg g (startRound X c root pub s) :=
  ⟨fun _ _ h => (by cases h), fun _ _ h => (by cases h), fun _ h => (by cases h)⟩

theorem rep_run {s s' : CAState} (evs : List CAEvent) (h : Rep s.pool) (hs : caRun X c root s evs = some s') : Rep s'.pool :=
  caRun_induct X c root (P := fun s => Rep s.pool) h (fun _ e _ hp hst => caStep_rep c root hp e hst) evs hs

end CA

/-! ### The logger's side -/

section Logger
variable {L : Lib} {X : XLib} (lc : LoggerConf L)

theorem built_fields {t : Instant} {certs : List Cert} {n : Nat} {b : Built} (hb : buildMerkle X lc t certs n = some b) :
    b.sth.signer = lc.signer ∧ b.sth.payload.p0 = lc.signer ∧ b.sth.period = itoa n ∧ b.sth.type = .STH_INIT := by
  unfold buildMerkle at hb
  obtain ⟨tree, _, rfl⟩ := Option.map_eq_some_iff.1 hb
  exact ⟨rfl, rfl, rfl, rfl⟩

theorem built_tree (hX : X.Laws) (hid : Ascii lc.signer) {t : Instant} {certs : List Cert} {n : Nat} {b : Built}
    (hb : buildMerkle X lc t certs n = some b) (hlt : certs.length < 2 ^ 63) :
    ∃ d, treeInfo X b.sth = some d ∧ d.rootHash = hexEncode b.root := by
  have h2 : 2 ≤ certs.length := by
    refine Classical.byContradiction fun h => ?_
    rw [buildMerkle_none X lc t certs n (by omega)] at hb
    cases hb
  obtain ⟨b', hb', _, _, raw, d, h1, h3, h4, _⟩ := C61_logger_proofs_verify X lc hX hid t certs n h2 hlt
  rw [hb] at hb'
  cases hb'
  refine ⟨d, ?_, h4⟩
  have hp : ∃ e, b.sth.payload.p1 = hexEncode e := by
    unfold buildMerkle at hb
    obtain ⟨tree, _, rfl⟩ := Option.map_eq_some_iff.1 hb
    exact ⟨_, rfl⟩
  obtain ⟨e, he⟩ := hp
  rw [he, hexDecode_encode] at h1
  cases h1
  unfold treeInfo
  rw [he, hexPrefix_encode]
  exact h3

/-- The proof a logger sent for a certificate, and the tree head it stored. -/
theorem logged (hX : X.Laws) (hid : Ascii lc.signer) (evs : List LoggerEvent) (s s' : LoggerState)
    (h : loggerRun X lc initLogger evs = some s) (t : Instant) (hr : loggerStep X lc s (.finish t) = some s')
    (hne : ∀ x ∈ s.pool.getCerts, x.subjectKeyId ≠ [])
    (hinj : ∀ x ∈ s.pool.getCerts, ∀ y ∈ s.pool.getCerts, x.subjectKeyId = y.subjectKeyId → x = y)
    (hlt : s.pool.getCerts.length < 2 ^ 63) (g : GossipObj) (hg : s'.sthStorage.get (padInt 2 (t.minute + 1)) = some g)
    (sent : List (Str × POI)) (hsent : s'.sentPOIs = s.sentPOIs ++ sent) (ca : Str) (p : POI) (hp : (ca, p) ∈ sent)
    (y : Cert) (hy : y ∈ s.pool.getCerts) (hk : p.subjectKeyId = y.subjectKeyId) :
    ∃ b, buildMerkle X lc t s.pool.getCerts (t.minute + 1) = some b ∧ g = b.sth ∧ p.loggerID = lc.signer ∧
      ∃ d, treeInfo X g = some d ∧ d.rootHash = hexEncode b.root ∧ verifyPOI L.sha256 b.root p.poi y = true := by
  obtain ⟨b, hb, sent', hs', hlen, hall⟩ := C75_all_proofs_sent_partial X lc evs s s' h t hr hne hinj
  rw [hsent] at hs'
  have := List.append_cancel_left hs'
  subst this
  obtain ⟨b', _, _, hb', _, hst⟩ := loggerRound_some X lc hr
  rw [hb] at hb'
  cases hb'
  have hgb : g = b.sth := by
    rw [hst] at hg
    simp only [GoMap.get_set_self, Option.some.injEq] at hg
    exact hg.symm
  obtain ⟨d, hd1, hd2⟩ := built_tree lc hX hid hb hlt
  obtain ⟨i, hi, hip⟩ := List.getElem_of_mem hp
  obtain ⟨x, hx⟩ : ∃ x, s.pool.getCerts[i]? = some x := ⟨_, List.getElem?_eq_getElem (by omega)⟩
  obtain ⟨q, hq, hq1, _, hq3, hq4⟩ := hall i x hx
  rw [List.getElem?_eq_getElem hi, hip] at hq
  cases hq
  have hxy : x = y := hinj x (List.mem_of_getElem? hx) y hy (hq1.symm.trans hk)
  subst hxy
  exact ⟨b, hb, hgb, hq3, d, by rw [hgb]; exact hd1, hd2, hq4⟩

end Logger

/-! ### C77 -/

section Pipeline
variable {L : Lib} {X : XLib}

/-- C77, for the minutes 10 to 59: an honest CA issues certificate `y` at the start of a round; an honest logger logs it and
ends its period in minute `t.minute`; its tree head and then its proof for `y` reach the CA among any other messages, none
of which pretends to be from this logger; the CA signs. Then one signed certificate keeps subject and key id of `y` and is
accepted by every client that knows the logger's key, recorded this logger's root for the next minute, has no proof of
misbehaviour of the logger and has a vector of the CA in which `y` is not revoked. Missing: the minutes 0 to 9
(`C77_violated_padding`). -/
theorem C77_accepted_partial (J : L.JsonLaws) (pub : L.RsaPriv → L.RsaPub) (laws : L.RsaLaws pub) (hX : X.Laws)
    -- the CA issues
    (c : CAConf L) (root : Cert) (hroot : root.subjectCN = c.signer) (sha : Str → Str) (rootPub : Str) (pre : List CAEvent)
    (s0 : CAState) (h0 : caRun X c root (initCA X sha c.signer rootPub).2 pre = some s0) (hempty : s0.pool.certs = [])
    (key : Nat → Str) (hkne : ∀ i, i < c.certPerPeriod → L.sha256 (key i) ≠ [])
    (hkinj : ∀ i j, i < c.certPerPeriod → j < c.certPerPeriod → L.sha256 (key i) = L.sha256 (key j) → i = j)
    (j : Nat) (hj : j < c.certPerPeriod) (hid : s0.certCounter + j < 2 ^ 63) (y : Cert)
    (hy : y = issuedCert X c root key s0.certCounter j)
    -- the logger logs
    (lc : LoggerConf L) (hsign : CanSign lc.crypto.signSecretKey) (hsafe : Safe lc.signer) (hascii : Ascii lc.signer)
    (hlne : lc.signer ≠ []) (levs : List LoggerEvent) (ls ls' : LoggerState)
    (hl : loggerRun X lc initLogger levs = some ls) (t t' : Instant) (hr : loggerStep X lc ls (.finish t) = some ls')
    (hyl : y.parseTBS ∈ ls.pool.getCerts) (hsne : ∀ x ∈ ls.pool.getCerts, x.subjectKeyId ≠ [])
    (hsinj : ∀ x ∈ ls.pool.getCerts, ∀ z ∈ ls.pool.getCerts, x.subjectKeyId = z.subjectKeyId → x = z)
    (hsize : ls.pool.getCerts.length < 2 ^ 63)
    (g : GossipObj) (hg : ls'.sthStorage.get (padInt 2 (t.minute + 1)) = some g)
    (sent : List (Str × POI)) (hsent : ls'.sentPOIs = ls.sentPOIs ++ sent) (ca : Str) (p : POI) (hp : (ca, p) ∈ sent)
    (hpk : p.subjectKeyId = y.subjectKeyId)
    -- the CA embeds and signs
    (hcs : c.crypto.signScheme = go!"rsa") (hck : c.crypto.signPublicMap.get lc.signer = some (pub lc.crypto.signSecretKey))
    (a b d : List CAEvent) (hev : ∀ e ∈ a ++ .sth g :: b ++ .poi p :: d, RoundEvent lc.signer y.subjectKeyId g p e)
    (s1 : CAState) (h1 : caRun X c root (startRound X c root key s0) (a ++ .sth g :: b ++ .poi p :: d) = some s1)
    (ht : 10 ≤ t.minute + 1) (ht' : t'.minute = t.minute + 1) :
    ∃ f ∈ signAll X L.sha256 root s1, f.subjectKeyId = y.subjectKeyId ∧ f.rawSubject = y.rawSubject ∧
      -- the client checks
      ∀ (cc : CryptoConfig L) (cs : ClientState) (v : BitSet), cc.signScheme = go!"rsa" →
        cc.signPublicMap.get lc.signer = some (pub lc.crypto.signSecretKey) →
        (∀ g' : GossipObj, g'.verify c.crypto = .ok → g'.verify cc ≠ .panic) →
        cs.pomDB.get lc.signer = none →
        cs.sthDB.get (lc.signer ++ go!"@" ++ getCurrentPeriod t') = (treeInfo X g).map (·.rootHash) →
        cs.crvDB.get c.signer = some v → v.test (s0.certCounter + j) = false → verifyCTngExt X cc cs f = .accept := by
  obtain ⟨bt, hbt, hgb, hpl, dd, hd1, hd2, hver⟩ := logged lc hX hascii levs ls ls' hl t hr hsne hsinj hsize g hg sent hsent
    ca p hp y.parseTBS hyl hpk
  obtain ⟨f1, f2, f3, f4⟩ := built_fields lc hbt
  rw [← hgb] at f1 f2 f3 f4
  have hvca : g.verify c.crypto = .ok := by
    rw [hgb]
    exact C76_tree_heads_verify X lc J pub laws hsign hsafe hlne c.crypto hcs hck t _ _ bt hbt
  have hrep0 : Rep s0.pool := rep_run c root pre rep_new h0
  have hski : y.subjectKeyId = L.sha256 (key j) := by rw [hy]; exact issuedCert_ski c root hX key _ j (hkne j hj)
  have hlook := start_lookup c root hX key s0 hrep0 hempty hkne hkinj j hj
  rw [← hski, ← hy] at hlook
  obtain ⟨hrid, hgrown⟩ := issuedCert_grownCert c root hX key s0.certCounter j hid lc.signer g p
  rw [← hy] at hrid hgrown
  obtain ⟨x, hx1, hx2, hx3⟩ := embedded c root hX hlne f1 hvca hpk hpl a b d hev h1
    (caStep_rep c root hrep0 (.start key) rfl) (heldSTHs_start c root key s0 lc.signer g) hlook hgrown
  have hysub : y.rawSubject ≠ [] := by
    rw [hy]
    exact hX.createHasSubject _ _ _ rfl
  obtain ⟨k1, k2, k3, k4⟩ := sign_keeps root hX L.sha256 x hx2.good (by rw [hx2.subject]; exact hysub)
    (by rw [hx2.ski, hski]; exact hkne j hj)
  refine ⟨_, signed_of_lookup root L.sha256 s1 _ x hx1, k3.trans hx2.ski, k2.trans hx2.subject, ?_⟩
  intro cc cs v hccs hcck hsame hfree hrec hv hvr
  have hvcc : g.verify cc = .ok := by
    rw [hgb]
    exact C76_tree_heads_verify X lc J pub laws hsign hsafe hlne cc hccs hcck t _ _ bt hbt
  refine (C51_certificate_iff_partial X cc cs _ v (by rw [k4, hroot]; exact hv) ?_).1.2 ⟨⟨⟨g, p⟩, by rw [k1]; exact hx3, ?_⟩, ?_⟩
  · intro e he
    rw [k1] at he
    rcases (hx2.entries e he).1 with hz | hz
    · intro _
      rw [hz]
      exact fun h => by cases h
    · exact fun _ => hsame _ hz
  · refine ⟨by rw [f1]; exact hfree, hvcc, dd, hd1, ?_, ?_⟩
    · rw [f2, f3, ← padTwo_of_ten ht (by have := t.minute_lt; omega), ← ht', ← period_eq_padInt, hrec, hd1]
      rfl
    · rw [hd2, hexPrefix_encode]
      have : (signCertificate X L.sha256 (x.forSigning X) root x.publicKey).parseTBS.block = y.parseTBS.block :=
        k2.trans hx2.subject
      unfold verifyPOI
      rw [this]
      exact hver
  · have : (signCertificate X L.sha256 (x.forSigning X) root x.publicKey).rid X = s0.certCounter + j := by
      unfold Cert.rid
      rw [k1]
      exact hx2.rid.trans hrid
    rw [this]
    exact hvr

/-- The last `@` splits a key. -/
theorem at_split {a b q r : Str} (h : a ++ go!"@" ++ q = b ++ go!"@" ++ r) (hq : (64 : UInt8) ∉ q) (hr : (64 : UInt8) ∉ r) :
    a = b ∧ q = r := by
  have hlit : (go!"@" : Str) = [64] := rfl
  rw [hlit] at h
  have key : ∀ (q r a b : Str), (64 : UInt8) ∉ q → (64 : UInt8) ∉ r → q ++ [64] ++ a = r ++ [64] ++ b → q = r ∧ a = b := by
    intro q
    induction q with
    | nil =>
      intro r a b _ hr h
      cases r with
      | nil => simpa using h
      | cons z t =>
        simp only [List.nil_append, List.cons_append, List.cons.injEq] at h
        exact absurd (h.1 ▸ List.mem_cons_self) hr
    | cons w t ih =>
      intro r a b hq hr h
      cases r with
      | nil =>
        simp only [List.nil_append, List.cons_append, List.cons.injEq] at h
        exact absurd (h.1 ▸ List.mem_cons_self) hq
      | cons z u =>
        simp only [List.cons_append, List.cons.injEq] at h
        obtain ⟨h1, h2⟩ := ih u a b (fun hm => hq (List.mem_cons_of_mem _ hm)) (fun hm => hr (List.mem_cons_of_mem _ hm)) h.2
        exact ⟨by rw [h.1, h1], h2⟩
  have hrev := congrArg List.reverse h
  simp only [List.reverse_append, List.reverse_cons, List.reverse_nil, List.nil_append] at hrev
  have := key q.reverse r.reverse a.reverse b.reverse (by simpa using hq) (by simpa using hr) (by simpa using hrev)
  exact ⟨List.reverse_inj.1 this.2, List.reverse_inj.1 this.1⟩

theorem itoa_no_at (n : Nat) : (64 : UInt8) ∉ itoa n := by
  intro h
  have := (itoa_digit n 64 h).2
  revert this
  decide

theorem clock_no_at {p : Str} (h : ClockPeriod p) : (64 : UInt8) ∉ p := by
  obtain ⟨t, rfl⟩ := h
  rw [period_eq_padInt]
  intro h
  unfold padInt at h
  rcases List.mem_append.1 h with h | h
  · rw [List.mem_replicate] at h
    exact absurd h.2 (by decide)
  · exact itoa_no_at _ h

/-- An entry that an honest logger made at the end of one of the minutes 0 to 8 or 59. -/
def EarlyEntry (L : Lib) (X : XLib) (e : LoggerInfo) : Prop :=
  ∃ (lc : LoggerConf L) (t : Instant) (certs : List Cert) (b : Built), Ascii lc.signer ∧ certs.length < 2 ^ 63 ∧
    buildMerkle X lc t certs (loggerNextNum t) = some b ∧ b.root ≠ [] ∧ (t.minute + 1 < 10 ∨ t.minute = 59) ∧ e.sth = b.sth

/-- C77 is false for ten minutes of every hour: the tree head embedded in a certificate names its period without padding
("5", or "60"), clients record roots under the period of the threshold-signed object, which is a clock string ("05", "00").
So a client never finds the root: a certificate whose tree heads were built in these minutes is not accepted, after any
history of updates whose tree heads carry clock periods, whatever these contain. -/
theorem C77_violated_padding (hX : X.Laws) (cc : CryptoConfig L) (us : List ClientUpdate)
    (hu : ∀ u ∈ us, ∀ g ∈ u.sths, ClockPeriod g.period) (cert : Cert)
    (he : ∀ e ∈ (cert.parseExt X).loggers, EarlyEntry L X e) :
    verifyCTngExt X cc (runUpdates X cc true us initClient).2 cert ≠ .accept := by
  intro hacc
  obtain ⟨⟨e, hem, hgood⟩, _, _⟩ := C51_accepted_partial X cc _ cert hacc
  obtain ⟨lc, t, certs, b, h1, h2, h3, h4, h5, h6⟩ := he e hem
  obtain ⟨f1, f2, f3, _⟩ := built_fields lc h3
  obtain ⟨d, hd1, hd2⟩ := built_tree lc hX h1 h3 h2
  obtain ⟨d', hd1', hroot, _⟩ := hgood.tree
  rw [h6, hd1] at hd1'
  cases hd1'
  have hinv := db_run X cc (fun _ => True) (fun g => ClockPeriod g.period) us initClient (db_init X _ _)
    (fun u h => ⟨fun _ _ _ => trivial, fun g hg _ => hu u h g hg⟩)
  cases hk : (runUpdates X cc true us initClient).2.sthDB.get (e.sth.payload.p0 ++ go!"@" ++ e.sth.period) with
  | none =>
    rw [hk, hd2] at hroot
    cases hbr : b.root with
    | nil => exact h4 hbr
    | cons x r => rw [hbr] at hroot; simp [hexEncode] at hroot
  | some r =>
    obtain ⟨g, _, hkey, _, _, hper⟩ := hinv.sth _ r hk
    rw [h6, sthKey, f2, f3, loggerNextNum_eq] at hkey
    have := (at_split hkey (itoa_no_at _) (clock_no_at hper)).2
    obtain ⟨t', ht'⟩ := hper
    rw [ht'] at this
    exact clock_ne_next t t' h5 this.symm

end Pipeline

/-! ### C86: forged proofs at the CA -/

section Forged
variable {L : Lib} {X : XLib} (c : CAConf L) (root : Cert)

/-- Any messages between the two parts of a round. -/
def Between : CAEvent → Prop
  | .start _ => False
  | .finish _ _ => False
  | .request _ => True
  | .revoke _ => True
  | .sth g => g.Plain
  | .poi q => q.Plain

theorem keeps_step (hX : X.Laws) {s s' : CAState} (e : CAEvent) (he : Between e) (hs : caStep X c root s e = some s')
    (hr : Rep s.pool) (hp : ∀ k g, s.sthStorage.get k = some g → g.Plain) {k : Str} {x : Cert}
    (hk : s.pool.getBySKI k = .ok (some x)) (hx : GoodExt X x) :
    Rep s'.pool ∧ (∀ k g, s'.sthStorage.get k = some g → g.Plain) ∧
      ∃ x', s'.pool.getBySKI k = .ok (some x') ∧ GoodExt X x' ∧ ∀ i ∈ (x.parseExt X).loggers, i ∈ (x'.parseExt X).loggers := by
  have hrep := caStep_rep c root hr e hs
  cases e with
  | start pub => exact absurd he id
  | finish t pos => exact absurd he id
  | request t =>
    simp only [caStep, Option.some.injEq] at hs
    obtain ⟨n, hn⟩ := request_frame c t s
    rw [hn] at hs; subst hs
    exact ⟨hrep, hp, x, hk, hx, fun _ h => h⟩
  | revoke i =>
    simp only [caStep, Option.some.injEq] at hs
    subst hs
    exact ⟨hrep, hp, x, hk, hx, fun _ h => h⟩
  | sth g' =>
    simp only [caStep, Option.some.injEq, caReceiveSTH] at hs
    split at hs
    · subst hs
      refine ⟨hrep, fun k' g'' h' => ?_, x, hk, hx, fun _ h => h⟩
      rcases get_set_cases h' with ⟨_, rfl⟩ | h'
      · exact he
      · exact hp k' g'' h'
    · subst hs
      exact ⟨hrep, hp, x, hk, hx, fun _ h => h⟩
  | poi q =>
    simp only [caStep, Option.some.injEq] at hs
    subst hs
    obtain ⟨pool, hpool⟩ := poi_frame X q s
    have hst : (caReceivePOI X q s).sthStorage = s.sthStorage := by rw [hpool]
    refine ⟨hrep, by rw [hst]; exact hp, ?_⟩
    have hlook := (poi_rep (X := X) hr q).2 k x hk
    by_cases hqk : q.subjectKeyId = k
    · rw [if_pos hqk] at hlook
      have hpl : (readObj s.sthStorage q.loggerID).Plain := by
        unfold readObj
        cases hgk : s.sthStorage.get q.loggerID with
        | none => exact zero_plain
        | some g' => exact hp _ g' hgk
      refine ⟨_, hlook, goodExt_update hX hx ⟨hpl, he⟩, fun i hi => ?_⟩
      rw [updateExt_parse hX hx.1 hx.2.1 (n := ⟨readObj s.sthStorage q.loggerID, q⟩) ⟨hpl, he⟩]
      simp only [mergeInfo]
      split
      · exact hi
      · exact List.mem_append_left _ hi
    · rw [if_neg hqk] at hlook
      exact ⟨x, hlook, hx, fun _ h => h⟩

theorem keeps_run (hX : X.Laws) (evs : List CAEvent) (he : ∀ e ∈ evs, Between e) {s s' : CAState}
    (hs : caRun X c root s evs = some s') (hr : Rep s.pool) (hp : ∀ k g, s.sthStorage.get k = some g → g.Plain) {k : Str}
    {x : Cert} (hk : s.pool.getBySKI k = .ok (some x)) (hx : GoodExt X x) :
    ∃ x', s'.pool.getBySKI k = .ok (some x') ∧ GoodExt X x' ∧ ∀ i ∈ (x.parseExt X).loggers, i ∈ (x'.parseExt X).loggers := by
  induction evs generalizing s x with
  | nil =>
    simp only [caRun, Option.some.injEq] at hs
    subst hs
    exact ⟨x, hk, hx, fun _ h => h⟩
  | cons e t ih =>
    simp only [caRun] at hs
    split at hs
    · cases hs
    rename_i s1 h1
    obtain ⟨r1, r2, x1, r3, r4, r5⟩ := keeps_step c root hX e (he e (by simp)) h1 hr hp hk hx
    obtain ⟨x2, q3, q4, q5⟩ := ih (fun e' h' => he e' (List.mem_cons_of_mem _ h')) hs r1 r2 r3 r4
    exact ⟨x2, q3, q4, fun i hi => q5 i (r5 i hi)⟩

/-- C86 is false: the CA embeds any proof it is sent. If someone posts a proof `q` without content in the name of a logger
whose tree head the CA holds, before the logger's own proof arrives, then whatever is received afterwards (including the
logger's proof) the certificate carries `q` and no other entry of that logger, and after signing no client counts an entry
of that logger as good. -/
theorem C86_violated_forged_proof (hX : X.Laws) (s : CAState) (hr : Rep s.pool)
    (hp : ∀ k g, s.sthStorage.get k = some g → g.Plain) (k lg : Str) (x : Cert) (hk : s.pool.getBySKI k = .ok (some x))
    (hx : GoodExt X x) (g : GossipObj) (hg : s.sthStorage.get lg = some g) (hsg : g.signer = lg)
    (hnone : ∀ i ∈ (x.parseExt X).loggers, i.sth.signer ≠ lg) (q : POI) (hq : q.Plain) (hqk : q.subjectKeyId = k)
    (hql : q.loggerID = lg) (hq0 : q.poi = none) (more : List CAEvent) (hm : ∀ e ∈ more, Between e) (s' : CAState)
    (hs : caRun X c root s (.poi q :: more) = some s') :
    ∃ x', s'.pool.getBySKI k = .ok (some x') ∧ ⟨g, q⟩ ∈ (x'.parseExt X).loggers ∧
      (∀ i ∈ (x'.parseExt X).loggers, i.sth.signer = lg → i = ⟨g, q⟩) ∧
      ∀ (sha : Str → Str) (cc : CryptoConfig L) (cs : ClientState), x'.rawSubject ≠ [] → x'.subjectKeyId ≠ [] →
        let f := signCertificate X sha (x'.forSigning X) root x'.publicKey
        ∀ i ∈ (f.parseExt X).loggers, i.sth.signer = lg → ¬ GoodEntry X cc cs f i := by
  simp only [caRun, caStep] at hs
  obtain ⟨r1, r2, _, _, _, _⟩ := keeps_step c root hX (.poi q) hq rfl hr hp hk hx
  have hlook := (poi_rep (X := X) hr q).2 k x hk
  have hread : readObj s.sthStorage q.loggerID = g := by unfold readObj; rw [hql, hg]; rfl
  rw [if_pos hqk, hread] at hlook
  have hn : (⟨g, q⟩ : LoggerInfo).Plain := ⟨hp _ g hg, hq⟩
  have hin : (⟨g, q⟩ : LoggerInfo) ∈ ((x.updateExt X ⟨g, q⟩).parseExt X).loggers := by
    rw [updateExt_parse hX hx.1 hx.2.1 hn]
    simp only [mergeInfo]
    split
    · rename_i h
      obtain ⟨i, hi, hsi⟩ := List.mem_map.1 h
      exact absurd (hsi.trans hsg) (hnone i hi)
    · simp
  obtain ⟨x', h1, h2, h3⟩ := keeps_run c root hX more hm hs r1 r2 hlook (goodExt_update hX hx hn)
  have huniq : ∀ i ∈ (x'.parseExt X).loggers, i.sth.signer = lg → i = ⟨g, q⟩ := by
    intro i hi hsi
    have hnd := h2.2.2
    have hj := h3 _ hin
    refine Classical.byContradiction fun hne => ?_
    have key : ∀ (l : List LoggerInfo) (a b : LoggerInfo), (l.map fun i => i.sth.signer).Nodup → a ∈ l → b ∈ l →
        a.sth.signer = b.sth.signer → a = b := by
      intro l
      induction l with
      | nil => intro a b _ ha; cases ha
      | cons z t ih =>
        intro a b hnd ha hb hab
        simp only [List.map_cons, List.nodup_cons] at hnd
        rcases List.mem_cons.1 ha with ha' | ha'
        · rcases List.mem_cons.1 hb with hb' | hb'
          · rw [ha', hb']
          · exact absurd (by rw [← ha', hab]; exact List.mem_map_of_mem (f := fun i : LoggerInfo => i.sth.signer) hb') hnd.1
        · rcases List.mem_cons.1 hb with hb' | hb'
          · exact absurd (by rw [← hb', ← hab]; exact List.mem_map_of_mem (f := fun i : LoggerInfo => i.sth.signer) ha') hnd.1
          · exact ih a b hnd.2 ha' hb' hab
    exact hne (key _ i ⟨g, q⟩ hnd hi hj (hsi.trans hsg.symm))
  refine ⟨x', h1, h3 _ hin, huniq, ?_⟩
  intro sha cc cs hsub hski f i hi hsi hgood
  obtain ⟨k1, _, _, _⟩ := sign_keeps root hX sha x' h2 hsub hski
  have hif : i = ⟨g, q⟩ := huniq i (by rw [← k1]; exact hi) hsi
  subst hif
  obtain ⟨d, _, _, hv⟩ := hgood.tree
  unfold verifyPOI at hv
  rw [hq0] at hv
  cases hv

/-- Every entry of a pool certificate has a tree head that verified, or none (the zero object). -/
structure EntriesInv (X : XLib) (s : CAState) : Prop where
  certs : ∀ x ∈ s.pool.certs, ∀ i ∈ (x.parseExt X).loggers, i.sth = GossipObj.zero ∨ i.sth.verify c.crypto = .ok
  sths : ∀ k g, s.sthStorage.get k = some g → g.verify c.crypto = .ok

theorem entriesInv_step (hX : X.Laws) {s s' : CAState} (e : CAEvent) (hpe : PlainEvents [e])
    (hpool : s.certCounter ≤ 2 ^ 63 → PoolInv X s) (h : s.certCounter ≤ 2 ^ 63 → EntriesInv c X s)
    (hs : caStep X c root s e = some s') : s'.certCounter ≤ 2 ^ 63 → EntriesInv c X s' := by
  intro hle
  cases e with
  | start pub =>
    simp only [caStep, Option.some.injEq] at hs
    subst hs
    simp only [startRound, issueLoop_counter] at hle ⊢
    have h0 := h (by omega)
    refine ⟨?_, by intro k g hk; cases hk⟩
    intro x hx
    rcases addAll_mem _ _ x hx with hx | hx
    · exact h0.certs x hx
    · obtain ⟨y, hy, rfl⟩ := List.mem_map.1 hx
      have hr : y.rid X ∈ List.range' s.certCounter c.certPerPeriod := by
        rw [← issueLoop_rids hX L.sha256 root c.signer pub s.certCounter c.certPerPeriod 0 s.certCounter hle]
        exact List.mem_map_of_mem hy
      simp only [List.mem_range'_1] at hr
      have hp : CTngExt.Plain ⟨y.rid X, []⟩ := ⟨by show y.rid X < 2 ^ 63; omega, by intro l hl; cases hl⟩
      have e : (y.toPrecert X).parseExt X = ⟨y.rid X, []⟩ := by
        have : (y.toPrecert X).parseExt X = X.decExt (X.encExt ⟨y.rid X, []⟩) := by
          simp [Cert.parseExt, Cert.toPrecert, Cert.rid]
        rw [this, hX.ext _ hp]
      intro i hi
      rw [e] at hi
      cases hi
  | finish t pos =>
    obtain ⟨_, _, _, _, rfl⟩ := endRound_some X c hs
    exact ⟨(by intro x hx; cases hx), (h hle).sths⟩
  | request t =>
    simp only [caStep, Option.some.injEq] at hs
    obtain ⟨n, hn⟩ := request_frame c t s
    rw [hn] at hs; subst hs
    exact ⟨(h hle).certs, (h hle).sths⟩
  | sth g =>
    simp only [caStep, Option.some.injEq, caReceiveSTH] at hs
    split at hs
    · rename_i hv
      subst hs
      refine ⟨(h hle).certs, ?_⟩
      intro k g' hk
      rcases get_set_cases hk with ⟨_, rfl⟩ | hk
      · exact hv
      · exact (h hle).sths k g' hk
    · subst hs; exact h hle
  | poi p =>
    have hp : p.Plain := hpe (.poi p) (by simp)
    simp only [caStep, Option.some.injEq, caReceivePOI] at hs
    split at hs
    · rename_i target ht
      split at hs
      · rename_i pool hpl
        subst hs
        have h0 := h hle
        have hi0 := hpool hle
        refine ⟨?_, h0.sths⟩
        intro x hx
        rcases updateBySKI_mem hpl x hx with hx | rfl
        · exact h0.certs x hx
        · have htm := getBySKI_mem ht
          have hpln : (readObj s.sthStorage p.loggerID).Plain := by
            unfold readObj
            cases hk : s.sthStorage.get p.loggerID with
            | none => exact zero_plain
            | some g => exact hi0.sths _ g hk
          have hgood := hi0.certs target htm
          intro i hi
          rw [updateExt_parse hX hgood.1 hgood.2.1 (n := ⟨readObj s.sthStorage p.loggerID, p⟩) ⟨hpln, hp⟩] at hi
          have hor : i ∈ (target.parseExt X).loggers ∨ i = ⟨readObj s.sthStorage p.loggerID, p⟩ := by
            simp only [mergeInfo] at hi
            split at hi
            · exact .inl hi
            · simpa using hi
          rcases hor with hi | rfl
          · exact h0.certs target htm i hi
          · simp only [readObj]
            cases hk : s.sthStorage.get p.loggerID with
            | none => exact .inl rfl
            | some g => exact .inr (h0.sths _ g hk)
      · subst hs; exact h hle
    · subst hs; exact h hle
  | revoke i =>
    simp only [caStep, Option.some.injEq] at hs
    subst hs
    exact ⟨(h hle).certs, (h hle).sths⟩

/-- C86, what the CA checks: in every history, an embedded tree head either verified or is the zero object (a proof that
arrived before the tree head of its logger). Missing: any check of the proofs, and the pairing of proof and tree head. -/
theorem C86_tree_heads_verified_partial (hX : X.Laws) (sha : Str → Str) (signer pub : Str) (evs : List CAEvent)
    (hpe : PlainEvents evs) (s : CAState) (h : caRun X c root (initCA X sha signer pub).2 evs = some s)
    (hlt : s.issued.length < 2 ^ 63) (x : Cert) (hx : x ∈ s.pool.getCerts) (i : LoggerInfo)
    (hi : i ∈ (x.parseExt X).loggers) : i.sth = GossipObj.zero ∨ i.sth.verify c.crypto = .ok := by
  have key : ∀ (evs : List CAEvent) (s0 s : CAState), PlainEvents evs →
      (s0.certCounter ≤ 2 ^ 63 → PoolInv X s0) → (s0.certCounter ≤ 2 ^ 63 → EntriesInv c X s0) →
      caRun X c root s0 evs = some s → (s.certCounter ≤ 2 ^ 63 → EntriesInv c X s) := by
    intro evs
    induction evs with
    | nil => intro s0 s _ _ h0 hr; simp only [caRun, Option.some.injEq] at hr; exact hr ▸ h0
    | cons e t ih =>
      intro s0 s hpe hp0 h0 hr
      simp only [caRun] at hr
      split at hr
      · cases hr
      rename_i s1 h1
      have hpe1 : PlainEvents [e] := fun e' he' => by
        simp only [List.mem_singleton] at he'; subst he'; exact hpe e' (by simp)
      exact ih s1 s (fun e' he' => hpe e' (List.mem_cons_of_mem _ he')) (poolInv_step c root hX e hpe1 hp0 h1)
        (entriesInv_step c root hX e hpe1 hp0 h0 h1) hr
  have hi' := caRun_induct X c root (P := IssuedInv X) (issuedInv_init X sha signer pub)
    (fun s e s' hp hs => issuedInv_step c root hX e hp hs) evs h
  have := key evs _ s hpe (fun _ => ⟨(by intro x hx; cases hx), by intro k g hk; cases hk⟩)
    (fun _ => ⟨(by intro x hx; cases hx), by intro k g hk; cases hk⟩) h (by rw [hi'.1]; omega)
  exact this.certs x hx i hi

end Forged
end CTng
