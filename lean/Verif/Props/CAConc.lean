import Verif.Model.CAConc
import Verif.Props.ClientExamples
/- Proofs of inclusion handled at once by a CA: C127. -/
set_option autoImplicit false

namespace CTng
variable {L : Lib} {X : XLib} (c : CAConf L) (root : Cert)

/-! ### One certificate -/

theorem updateExt_write (x : Cert) (n : LoggerInfo) : x.updateExt X n =
    if (x.parseExt X).loggers.any (fun l => l.sth.signer = n.sth.signer) then x
    else x.writeExt X { x.parseExt X with loggers := (x.parseExt X).loggers ++ [n] } := rfl

theorem writeExt_fields (x : Cert) (ext : CTngExt) : (x.writeExt X ext).rawSubject = x.rawSubject ∧
    (x.writeExt X ext).subjectKeyId = x.subjectKeyId ∧ (x.writeExt X ext).publicKey = x.publicKey := ⟨rfl, rfl, rfl⟩

theorem writeExt_hasExt {x : Cert} (h : x.hasExt) (ext : CTngExt) : (x.writeExt X ext).hasExt := by
  obtain ⟨e, he, ho⟩ := h
  exact ⟨_, List.mem_map_of_mem he, by simp [ho]⟩

theorem writeExt_parse (hX : X.Laws) {x : Cert} (h : x.hasExt) {ext : CTngExt} (hp : ext.Plain) :
    (x.writeExt X ext).parseExt X = ext := by
  rw [parseExt_eq]
  simp only [Cert.writeExt]
  rw [filter_map_fst, List.getLast?_map]
  obtain ⟨e, he, ho⟩ := h
  have hne : (x.extensions.filter fun e => e.1 = oidCTng) ≠ [] := by
    intro e0
    have : e ∈ x.extensions.filter fun e => e.1 = oidCTng := by simp [he, ho]
    rw [e0] at this
    cases this
  rw [List.getLast?_eq_some_getLast hne]
  simp only [Option.map_some]
  exact hX.ext _ hp

/-! ### Where the span begins -/

/-- A state of a CA that has issued fewer than 2^63 certificates, after any events with representable content. -/
def CAReach (X : XLib) (s : CAState) : Prop :=
  ∃ sha signer pub evs, PlainEvents evs ∧ caRun X c root (initCA X sha signer pub).2 evs = some s ∧ s.issued.length < 2 ^ 63

theorem caReach_inv (hX : X.Laws) {s : CAState} (h : CAReach c root X s) : PoolInv X s ∧ EntriesInv c X s ∧ Rep s.pool := by
  obtain ⟨sha, signer, pub, evs, hpe, hrun, hlt⟩ := h
  have key : ∀ (evs : List CAEvent) (s0 s : CAState), PlainEvents evs →
      (s0.certCounter ≤ 2 ^ 63 → PoolInv X s0) → (s0.certCounter ≤ 2 ^ 63 → EntriesInv c X s0) →
      caRun X c root s0 evs = some s → (s.certCounter ≤ 2 ^ 63 → PoolInv X s) ∧ (s.certCounter ≤ 2 ^ 63 → EntriesInv c X s) := by
    intro evs
    induction evs with
    | nil => intro s0 s _ h0 h1 hr; simp only [caRun, Option.some.injEq] at hr; exact hr ▸ ⟨h0, h1⟩
    | cons e t ih =>
      intro s0 s hpe hp0 h0 hr
      simp only [caRun] at hr
      split at hr
      · cases hr
      rename_i s1 h1
      have hpe1 : PlainEvents [e] := fun e' he' => by
        simp only [List.mem_singleton] at he'; subst he'; exact hpe e' (by simp)
      exact ih s1 s (fun e' he' => hpe e' (List.mem_cons_of_mem _ he')) (poolInv_step c root hX e hpe1 hp0 h1)
        (entriesInv_step c root hX e hpe1 hp0 h0 h1) hr
  have hi' := caRun_induct X c root (P := IssuedInv X) (issuedInv_init X sha signer pub)
    (fun s e s' hp hs => issuedInv_step c root hX e hp hs) evs hrun
  obtain ⟨h1, h2⟩ := key evs _ s hpe (fun _ => ⟨(by intro x hx; cases hx), by intro k g hk; cases hk⟩)
    (fun _ => ⟨(by intro x hx; cases hx), by intro k g hk; cases hk⟩) hrun
  exact ⟨h1 (by rw [hi'.1]; omega), h2 (by rw [hi'.1]; omega), rep_run c root evs rep_new hrun⟩

/-- Tree heads and proofs that arrive are representable. -/
def PlainConc : CAConcEvent → Prop
  | .sth g => g.Plain
  | .poi p => p.Plain
  | _ => True

theorem caConcRun_cons (m : CAConc) (e : CAConcEvent) (h : List CAConcEvent) :
    caConcRun X c m (e :: h) = caConcRun X c (caConcStep X c m e) h := rfl

theorem caConcRun_append (m : CAConc) (h h' : List CAConcEvent) :
    caConcRun X c m (h ++ h') = caConcRun X c (caConcRun X c m h) h' := List.foldl_append

/-! ### A handler that is alone -/

/-- C127, one proof at a time: a handler executed without any other step in between does what `receive_poi` does at once (C60,
C86). Missing for the full property: handlers of the same certificate at the same time. -/
theorem C127_alone_is_sequential_partial (hX : X.Laws) (s : CAState) (hs : CAReach c root X s) (hs' : List PoiAt) (p : POI) :
    caConcRun X c ⟨s, hs'⟩ (.poi p :: List.replicate 4 (.run hs'.length)) =
      ⟨caReceivePOI X p s, hs' ++ [.done ((CertPool.idx s.pool.bySubjectKeyId p.subjectKeyId).head?) ⟨readObj s.sthStorage p.loggerID, p⟩]⟩ := by
  obtain ⟨_, _, l, hl⟩ := caReach_inv c root hX hs
  have hget : ∀ q : PoiAt, (hs' ++ [q])[hs'.length]? = some q := by intro q; simp
  have hset : ∀ q q' : PoiAt, (hs' ++ [q]).set hs'.length q' = hs' ++ [q'] := by intro q q'; simp
  have step : ∀ (s : CAState) (q : PoiAt), caConcStep X c ⟨s, hs' ++ [q]⟩ (.run hs'.length) =
      ⟨(poiStep X s q).1, hs' ++ [(poiStep X s q).2]⟩ := by
    intro s q; simp only [caConcStep, hget, hset]
  have er : List.replicate 4 (CAConcEvent.run hs'.length) =
      [.run hs'.length, .run hs'.length, .run hs'.length, .run hs'.length] := rfl
  have first : caConcStep X c ⟨s, hs'⟩ (.poi p) = ⟨s, hs' ++ [.arrived p]⟩ := rfl
  have hnil : ∀ m : CAConc, caConcRun X c m [] = m := fun _ => rfl
  rw [er]
  simp only [caConcRun_cons, first, step, hnil]
  generalize hn : (⟨readObj s.sthStorage p.loggerID, p⟩ : LoggerInfo) = n
  have hnp : n.poi = p := by rw [← hn]
  have e1 : poiStep X s (.arrived p) = (s, .read n) := by rw [← hn]; rfl
  have hspec := getBySKI_spec hl p.subjectKeyId
  unfold caReceivePOI
  simp only [hn]
  rw [e1]
  simp only []
  cases hi : CertPool.idx s.pool.bySubjectKeyId p.subjectKeyId with
  | nil =>
    have e2 : poiStep X s (.read n) = (s, .done none n) := by simp only [poiStep, hnp, hi]
    have hg : s.pool.getBySKI p.subjectKeyId = .ok none := by unfold CertPool.getBySKI; rw [hi]
    rw [e2, hg]
    rfl
  | cons i r =>
    have e2 : poiStep X s (.read n) = (s, .found i n) := by simp only [poiStep, hnp, hi]
    rw [e2]
    simp only []
    cases hx : s.pool.certs[i]? with
    | none =>
      unfold CertPool.getBySKI at hspec
      rw [hi] at hspec
      simp only [hx] at hspec
      cases hspec
    | some x =>
      have hlt := (List.getElem?_eq_some_iff.1 hx).1
      have hg : s.pool.getBySKI p.subjectKeyId = .ok (some x) := by unfold CertPool.getBySKI; rw [hi]; simp only [hx]
      have hup : s.pool.updateBySKI p.subjectKeyId (x.updateExt X n) =
          .ok { s.pool with certs := s.pool.certs.set i (x.updateExt X n) } := by
        unfold CertPool.updateBySKI; rw [hi]; simp only [if_pos hlt]
      simp only [hg, hup]
      cases ha : (x.parseExt X).loggers.any fun l => l.sth.signer = n.sth.signer with
      | true =>
        have e3 : poiStep X s (.found i n) = (s, .done (some i) n) := by simp only [poiStep, hx, ha, if_true]
        rw [e3, updateExt_write, ha]
        simp only [if_true, poiStep, List.head?_cons]
        have hself : s.pool.certs.set i x = s.pool.certs := by
          apply List.ext_getElem?
          intro j
          by_cases hij : i = j
          · subst hij; rw [List.getElem?_set_self hlt, hx]
          · rw [List.getElem?_set_ne hij]
        rw [hself]
      | false =>
        have e3 : poiStep X s (.found i n) =
            (s, .decoded i n { x.parseExt X with loggers := (x.parseExt X).loggers ++ [n] }) := by
          simp only [poiStep, hx, ha, Bool.false_eq_true, if_false]
        rw [e3, updateExt_write, ha]
        simp only [Bool.false_eq_true, if_false, poiStep, hx, List.head?_cons]

/-! ### Any interleaving -/

/-- The tree head of an entry is the zero object or one that verifies. -/
def SthOk (n : LoggerInfo) : Prop := n.sth = GossipObj.zero ∨ n.sth.verify c.crypto = .ok

/-- What a certificate keeps. -/
def Cert.ident (X : XLib) (x : Cert) : Nat × Str × Str × Str := (x.rid X, x.rawSubject, x.subjectKeyId, x.publicKey)

/-- A decoded and extended list of entries is fit to be written. -/
structure ExtOk (ext : CTngExt) : Prop where
  plain : ext.Plain
  nodup : (ext.loggers.map fun i => i.sth.signer).Nodup
  sths : ∀ i ∈ ext.loggers, SthOk c i

/-- What is true of a handler. -/
def HandlerOk (s0 : CAState) : PoiAt → Prop
  | .arrived p => p.Plain
  | .read n => n.Plain ∧ SthOk c n
  | .found _ n => n.Plain ∧ SthOk c n
  | .decoded i _ ext => ExtOk c ext ∧ ∀ x0, s0.pool.certs[i]? = some x0 → ext.rid = x0.rid X
  | .done _ _ => True

structure ConcInv (X : XLib) (s0 : CAState) (m : CAConc) : Prop where
  certs : ∀ x ∈ m.s.pool.certs, x.hasExt ∧ ExtOk c (x.parseExt X)
  sths : ∀ k g, m.s.sthStorage.get k = some g → g.Plain ∧ g.verify c.crypto = .ok
  hs : ∀ h ∈ m.hs, HandlerOk (X := X) c s0 h
  same : ∀ j : Nat, (m.s.pool.certs[j]?).map (Cert.ident X) = (s0.pool.certs[j]?).map (Cert.ident X)

theorem poiStep_inv (hX : X.Laws) {s0 : CAState} {m : CAConc} (h : ConcInv c X s0 m) {q : PoiAt} (hq : q ∈ m.hs) (k : Nat) :
    ConcInv c X s0 ⟨(poiStep X m.s q).1, m.hs.set k (poiStep X m.s q).2⟩ := by
  have hok := h.hs q hq
  have base : ∀ q', HandlerOk (X := X) c s0 q' → ConcInv c X s0 ⟨m.s, m.hs.set k q'⟩ := by
    intro q' hq'
    refine ⟨h.certs, h.sths, ?_, h.same⟩
    intro r hr
    rcases List.mem_or_eq_of_mem_set hr with hr | rfl
    · exact h.hs r hr
    · exact hq'
  cases q with
  | arrived p =>
    apply base
    refine ⟨⟨?_, hok⟩, ?_⟩
    · show (readObj m.s.sthStorage p.loggerID).Plain
      unfold readObj
      cases hg : m.s.sthStorage.get p.loggerID with
      | none => exact zero_plain
      | some g => exact (h.sths _ g hg).1
    · show readObj m.s.sthStorage p.loggerID = _ ∨ (readObj m.s.sthStorage p.loggerID).verify c.crypto = .ok
      unfold readObj
      cases hg : m.s.sthStorage.get p.loggerID with
      | none => exact Or.inl rfl
      | some g => exact Or.inr (h.sths _ g hg).2
  | read n =>
    simp only [poiStep]
    split
    · exact base _ trivial
    · exact base _ hok
  | found i n =>
    simp only [poiStep]
    split
    · exact base _ trivial
    · rename_i x hx
      split
      · exact base _ trivial
      · rename_i hany
        obtain ⟨_, hext⟩ := h.certs x (List.mem_of_getElem? hx)
        apply base
        refine ⟨⟨⟨hext.plain.rid, ?_⟩, ?_, ?_⟩, ?_⟩
        · intro l hl
          rcases List.mem_append.1 hl with hl | hl
          · exact hext.plain.loggers l hl
          · simp only [List.mem_singleton] at hl; exact hl ▸ hok.1
        · simp only [List.map_append, List.map_cons, List.map_nil]
          rw [List.nodup_append]
          refine ⟨hext.nodup, by simp, ?_⟩
          intro a ha b hb
          simp only [List.mem_singleton] at hb
          subst hb
          intro hab
          apply hany
          obtain ⟨l, hl, rfl⟩ := List.mem_map.1 ha
          exact List.any_eq_true.2 ⟨l, hl, by simpa using hab⟩
        · intro l hl
          rcases List.mem_append.1 hl with hl | hl
          · exact hext.sths l hl
          · simp only [List.mem_singleton] at hl; exact hl ▸ hok.2
        · intro x0 hx0
          have := h.same i
          rw [hx, hx0] at this
          simp only [Option.map_some, Option.some.injEq, Cert.ident, Prod.mk.injEq] at this
          exact this.1
  | decoded i n ext =>
    obtain ⟨hext, hrid⟩ := hok
    simp only [poiStep]
    split
    · exact base _ trivial
    · rename_i x hx
      obtain ⟨hh, _⟩ := h.certs x (List.mem_of_getElem? hx)
      have hpw := writeExt_parse hX hh hext.plain
      refine ⟨?_, h.sths, ?_, ?_⟩
      · intro y hy
        rcases List.mem_or_eq_of_mem_set hy with hy | rfl
        · exact h.certs y hy
        · exact ⟨writeExt_hasExt hh ext, by rw [hpw]; exact hext⟩
      · intro r hr
        rcases List.mem_or_eq_of_mem_set hr with hr | rfl
        · exact h.hs r hr
        · trivial
      · intro j
        simp only
        by_cases hij : i = j
        · subst hij
          rw [List.getElem?_set_self (List.getElem?_eq_some_iff.1 hx).1]
          have hs := h.same i
          rw [hx] at hs
          cases h0 : s0.pool.certs[i]? with
          | none => rw [h0] at hs; cases hs
          | some x0 =>
            rw [h0] at hs
            simp only [Option.map_some, Option.some.injEq, Cert.ident, Prod.mk.injEq] at hs ⊢
            refine ⟨?_, hs.2.1, hs.2.2.1, hs.2.2.2⟩
            show (Cert.parseExt X _).rid = _
            rw [hpw]
            exact hrid x0 h0
        · rw [List.getElem?_set_ne hij]; exact h.same j
  | done i n => exact base _ trivial

theorem caConcStep_inv (hX : X.Laws) {s0 : CAState} {m : CAConc} (h : ConcInv c X s0 m) (e : CAConcEvent) (he : PlainConc e) :
    ConcInv c X s0 (caConcStep X c m e) := by
  cases e with
  | sth g =>
    simp only [caConcStep, caReceiveSTH]
    split
    · rename_i hv
      refine ⟨h.certs, ?_, h.hs, h.same⟩
      intro k g' hg
      by_cases hk : k = g.signer
      · subst hk
        simp only [GoMap.get_set_self, Option.some.injEq] at hg
        subst hg
        exact ⟨he, hv⟩
      · simp only at hg
        rw [GoMap.get_set_ne _ _ hk] at hg
        exact h.sths k g' hg
    · exact ⟨h.certs, h.sths, h.hs, h.same⟩
  | request t =>
    have hp : (requestREV c t m.s).2.pool = m.s.pool ∧ (requestREV c t m.s).2.sthStorage = m.s.sthStorage := by
      unfold requestREV; simp only; split <;> exact ⟨rfl, rfl⟩
    refine ⟨?_, ?_, h.hs, ?_⟩
    · simp only [caConcStep, hp.1]; exact h.certs
    · simp only [caConcStep, hp.2]; exact h.sths
    · simp only [caConcStep, hp.1]; exact h.same
  | poi p =>
    refine ⟨h.certs, h.sths, ?_, h.same⟩
    intro q hq
    rcases List.mem_append.1 hq with hq | hq
    · exact h.hs q hq
    · simp only [List.mem_singleton] at hq; subst hq; exact he
  | run k =>
    simp only [caConcStep]
    split
    · exact h
    · rename_i q hq
      exact poiStep_inv c hX h (List.mem_of_getElem? hq) k

theorem caConcRun_inv (hX : X.Laws) {s0 : CAState} (h : List CAConcEvent) (he : ∀ e ∈ h, PlainConc e) {m : CAConc}
    (hm : ConcInv c X s0 m) : ConcInv c X s0 (caConcRun X c m h) := by
  induction h generalizing m with
  | nil => exact hm
  | cons e r ih =>
    exact ih (fun e' he' => he e' (List.mem_cons_of_mem _ he')) (caConcStep_inv c hX hm e (he e (by simp)))

theorem concInv_init (hX : X.Laws) {s : CAState} (hs : CAReach c root X s) : ConcInv c X s ⟨s, []⟩ := by
  obtain ⟨h1, h2, _⟩ := caReach_inv c root hX hs
  refine ⟨?_, fun k g hg => ⟨h1.sths k g hg, h2.sths k g hg⟩, (by intro q hq; cases hq), fun j => rfl⟩
  intro x hx
  obtain ⟨a, b, d⟩ := h1.certs x hx
  exact ⟨a, b, d, h2.certs x hx⟩

/-- C127, what holds under any interleaving of any number of proofs, tree heads and requests: every certificate of the pool keeps
its revocation id, subject, key id and key, has an extension with at most one entry per tree-head signer, and every entry has
a verified tree head or none. Missing for the full property: that no entry is lost. -/
theorem C127_any_interleaving_partial (hX : X.Laws) (s : CAState) (hs : CAReach c root X s) (h : List CAConcEvent)
    (he : ∀ e ∈ h, PlainConc e) (j : Nat) :
    (s.pool.certs[j]? = none ↔ (caConcRun X c ⟨s, []⟩ h).s.pool.certs[j]? = none) ∧
    ∀ x0 x, s.pool.certs[j]? = some x0 → (caConcRun X c ⟨s, []⟩ h).s.pool.certs[j]? = some x →
      x.rid X = x0.rid X ∧ x.rawSubject = x0.rawSubject ∧ x.subjectKeyId = x0.subjectKeyId ∧ x.publicKey = x0.publicKey ∧
      x.hasExt ∧ ((x.parseExt X).loggers.map fun i => i.sth.signer).Nodup ∧
      ∀ i ∈ (x.parseExt X).loggers, i.sth = GossipObj.zero ∨ i.sth.verify c.crypto = .ok := by
  have hi := caConcRun_inv c hX h he (concInv_init c root hX hs)
  have hsame := hi.same j
  constructor
  · constructor
    · intro h0; rw [h0] at hsame; simpa using hsame
    · intro h1; rw [h1] at hsame; simpa using hsame.symm
  · intro x0 x h0 h1
    rw [h0, h1] at hsame
    simp only [Option.map_some, Option.some.injEq, Cert.ident, Prod.mk.injEq] at hsame
    obtain ⟨a, b⟩ := hi.certs x (List.mem_of_getElem? h1)
    exact ⟨hsame.1, hsame.2.1, hsame.2.2.1, hsame.2.2.2, a, b.nodup, b.sths⟩

/-! ### Two proofs at once -/

/-- C127 fails: in any state of the span, two proofs for one certificate, from loggers that have no entry in it yet, are decoded
one after the other and then written one after the other: both handlers have answered, and the entry of the first is not in
the certificate. -/
theorem C127_violated_lost_entry (hX : X.Laws) (m : CAConc) (i k1 k2 : Nat) (hk : k1 ≠ k2) (x : Cert)
    (hx : m.s.pool.certs[i]? = some x) (hg : GoodExt X x) (n1 n2 : LoggerInfo) (hp1 : n1.Plain) (hp2 : n2.Plain)
    (h1 : m.hs[k1]? = some (.found i n1)) (h2 : m.hs[k2]? = some (.found i n2))
    (hn1 : ∀ l ∈ (x.parseExt X).loggers, l.sth.signer ≠ n1.sth.signer)
    (hn2 : ∀ l ∈ (x.parseExt X).loggers, l.sth.signer ≠ n2.sth.signer) (hne : n1.sth.signer ≠ n2.sth.signer) :
    let m' := caConcRun X c m [.run k1, .run k2, .run k1, .run k2]
    m'.hs[k1]? = some (.done (some i) n1) ∧ m'.hs[k2]? = some (.done (some i) n2) ∧
      ∃ x', m'.s.pool.certs[i]? = some x' ∧ (x'.parseExt X).loggers = (x.parseExt X).loggers ++ [n2] ∧
        ∀ l ∈ (x'.parseExt X).loggers, l.sth.signer ≠ n1.sth.signer := by
  have hany : ∀ n : LoggerInfo, (∀ l ∈ (x.parseExt X).loggers, l.sth.signer ≠ n.sth.signer) →
      ((x.parseExt X).loggers.any fun l => l.sth.signer = n.sth.signer) = false := by
    intro n hn
    rw [List.any_eq_false]
    intro l hl
    simpa using hn l hl
  have hlt1 := (List.getElem?_eq_some_iff.1 h1).1
  have hlt2 := (List.getElem?_eq_some_iff.1 h2).1
  have hlti := (List.getElem?_eq_some_iff.1 hx).1
  generalize he1 : ({ x.parseExt X with loggers := (x.parseExt X).loggers ++ [n1] } : CTngExt) = e1
  generalize he2 : ({ x.parseExt X with loggers := (x.parseExt X).loggers ++ [n2] } : CTngExt) = e2
  have hplain : ∀ n : LoggerInfo, n.Plain → CTngExt.Plain { x.parseExt X with loggers := (x.parseExt X).loggers ++ [n] } := by
    intro n hn
    refine ⟨hg.2.1.rid, ?_⟩
    intro l hl
    rcases List.mem_append.1 hl with hl | hl
    · exact hg.2.1.loggers l hl
    · simp only [List.mem_singleton] at hl; exact hl ▸ hn
  have pe1 : e1.Plain := he1 ▸ hplain n1 hp1
  have pe2 : e2.Plain := he2 ▸ hplain n2 hp2
  have s1 : caConcStep X c m (.run k1) = ⟨m.s, m.hs.set k1 (.decoded i n1 e1)⟩ := by
    simp only [caConcStep, h1, poiStep, hx, hany n1 hn1, Bool.false_eq_true, if_false, ← he1]
  have h2' : (m.hs.set k1 (.decoded i n1 e1))[k2]? = some (.found i n2) := by rw [List.getElem?_set_ne hk]; exact h2
  have s2 : caConcStep X c ⟨m.s, m.hs.set k1 (.decoded i n1 e1)⟩ (.run k2) =
      ⟨m.s, (m.hs.set k1 (.decoded i n1 e1)).set k2 (.decoded i n2 e2)⟩ := by
    simp only [caConcStep, h2', poiStep, hx, hany n2 hn2, Bool.false_eq_true, if_false, ← he2]
  have h1' : ((m.hs.set k1 (.decoded i n1 e1)).set k2 (.decoded i n2 e2))[k1]? = some (.decoded i n1 e1) := by
    rw [List.getElem?_set_ne (Ne.symm hk), List.getElem?_set_self hlt1]
  have s3 : caConcStep X c ⟨m.s, (m.hs.set k1 (.decoded i n1 e1)).set k2 (.decoded i n2 e2)⟩ (.run k1) =
      ⟨{ m.s with pool := { m.s.pool with certs := m.s.pool.certs.set i (x.writeExt X e1) } },
        ((m.hs.set k1 (.decoded i n1 e1)).set k2 (.decoded i n2 e2)).set k1 (.done (some i) n1)⟩ := by
    simp only [caConcStep, h1', poiStep, hx]
  generalize hb : (m.hs.set k1 (.decoded i n1 e1)).set k2 (.decoded i n2 e2) = hs2 at s2 s3 h1'
  have hl2 : k1 < hs2.length ∧ k2 < hs2.length := by rw [← hb]; simp [hlt1, hlt2]
  have h2'' : (hs2.set k1 (.done (some i) n1))[k2]? = some (.decoded i n2 e2) := by
    rw [List.getElem?_set_ne hk, ← hb, List.getElem?_set_self (by simpa using hlt2)]
  have hx1 : (m.s.pool.certs.set i (x.writeExt X e1))[i]? = some (x.writeExt X e1) := List.getElem?_set_self hlti
  have s4 : caConcStep X c ⟨{ m.s with pool := { m.s.pool with certs := m.s.pool.certs.set i (x.writeExt X e1) } },
        hs2.set k1 (.done (some i) n1)⟩ (.run k2) =
      ⟨{ m.s with pool := { m.s.pool with certs := (m.s.pool.certs.set i (x.writeExt X e1)).set i ((x.writeExt X e1).writeExt X e2) } },
        (hs2.set k1 (.done (some i) n1)).set k2 (.done (some i) n2)⟩ := by
    simp only [caConcStep, h2'', poiStep, hx1]
  simp only [caConcRun_cons, s1, s2, s3, s4]
  have hloggers : (((x.writeExt X e1).writeExt X e2).parseExt X).loggers = (x.parseExt X).loggers ++ [n2] := by
    rw [writeExt_parse hX (writeExt_hasExt hg.1 e1) pe2, ← he2]
  refine ⟨?_, ?_, (x.writeExt X e1).writeExt X e2, ?_, hloggers, ?_⟩
  · show ((hs2.set k1 _).set k2 _)[k1]? = _
    rw [List.getElem?_set_ne (Ne.symm hk), List.getElem?_set_self hl2.1]
  · show ((hs2.set k1 _).set k2 _)[k2]? = _
    rw [List.getElem?_set_self (by simpa using hl2.2)]
  · show ((m.s.pool.certs.set i _).set i _)[i]? = _
    rw [List.getElem?_set_self (by simpa using hlti)]
  · intro l hl
    rw [hloggers] at hl
    rcases List.mem_append.1 hl with hl | hl
    · exact hn1 l hl
    · simp only [List.mem_singleton] at hl; subst hl; exact fun e => hne e.symm

/-! ### No two handlers of one certificate between decoding and writing -/

/-- No handler decodes the extension of a certificate while another one is about to write it. Handlers of other certificates
may do anything. -/
def OneAtATime (X : XLib) (m : CAConc) : List CAConcEvent → Prop
  | [] => True
  | e :: h => (match e with
      | .run k => ∀ i n, m.hs[k]? = some (.found i n) → ∀ (k' : Nat) n' ext, m.hs[k']? ≠ some (.decoded i n' ext)
      | _ => True) ∧ OneAtATime X (caConcStep X c m e) h

/-- Where the certificate of a handler is. -/
def PlaceOk (s0 : CAState) : PoiAt → Prop
  | .arrived _ | .read _ => True
  | .found i n | .decoded i n _ | .done (some i) n =>
    (CertPool.idx s0.pool.bySubjectKeyId n.poi.subjectKeyId).head? = some i
  | .done none n => CertPool.idx s0.pool.bySubjectKeyId n.poi.subjectKeyId = []

structure OneInv (X : XLib) (s0 : CAState) (m : CAConc) : Prop where
  keys : m.s.pool.bySubjectKeyId = s0.pool.bySubjectKeyId
  place : ∀ q ∈ m.hs, PlaceOk s0 q
  one : ∀ (k k' : Nat) i n n' e e', m.hs[k]? = some (.decoded i n e) → m.hs[k']? = some (.decoded i n' e') → k = k'
  fresh : ∀ (k : Nat) i n e, m.hs[k]? = some (.decoded i n e) → ∀ x, m.s.pool.certs[i]? = some x →
    e = { x.parseExt X with loggers := (x.parseExt X).loggers ++ [n] }
  done : ∀ (k : Nat) i n, m.hs[k]? = some (.done (some i) n) → ∃ x, m.s.pool.certs[i]? = some x ∧
    ∃ l ∈ (x.parseExt X).loggers, l.sth.signer = n.sth.signer

/-- No entry of a certificate has gone. -/
def Grows (X : XLib) (s s' : CAState) : Prop :=
  ∀ (j : Nat) x, s.pool.certs[j]? = some x → ∃ x', s'.pool.certs[j]? = some x' ∧ (x.parseExt X).loggers <+: (x'.parseExt X).loggers

theorem grows_refl (s : CAState) : Grows X s s := fun _ x h => ⟨x, h, List.prefix_refl _⟩

theorem grows_trans {s s' s'' : CAState} (h : Grows X s s') (h' : Grows X s' s'') : Grows X s s'' := by
  intro j x hx
  obtain ⟨x', h1, h2⟩ := h j x hx
  obtain ⟨x'', h3, h4⟩ := h' j x' h1
  exact ⟨x'', h3, h2.trans h4⟩

/-- Replacing a handler by one that is not about to write, with the pool as it was. -/
theorem oneInv_set {s0 : CAState} {m : CAConc} (h : OneInv X s0 m) (k : Nat) (q' : PoiAt) (hp : PlaceOk s0 q')
    (hd : ∀ i n e, q' ≠ .decoded i n e)
    (hdone : ∀ i n, q' = .done (some i) n → ∃ x, m.s.pool.certs[i]? = some x ∧ ∃ l ∈ (x.parseExt X).loggers, l.sth.signer = n.sth.signer) :
    OneInv X s0 ⟨m.s, m.hs.set k q'⟩ := by
  have old : ∀ (j : Nat) q, (m.hs.set k q')[j]? = some q → q = q' ∨ m.hs[j]? = some q := by
    intro j q hj
    by_cases hjk : k = j
    · subst hjk
      by_cases hlt : k < m.hs.length
      · rw [List.getElem?_set_self hlt] at hj; exact Or.inl (Option.some.inj hj).symm
      · rw [List.getElem?_eq_none (by simpa using hlt)] at hj; cases hj
    · rw [List.getElem?_set_ne hjk] at hj; exact Or.inr hj
  refine ⟨h.keys, ?_, ?_, ?_, ?_⟩
  · intro r hr
    rcases List.mem_or_eq_of_mem_set hr with hr | rfl
    · exact h.place r hr
    · exact hp
  · intro a b i n n' e e' ha hb
    rcases old a _ ha with ha | ha
    · exact absurd ha.symm (hd _ _ _)
    rcases old b _ hb with hb | hb
    · exact absurd hb.symm (hd _ _ _)
    exact h.one a b i n n' e e' ha hb
  · intro a i n e ha
    rcases old a _ ha with ha | ha
    · exact absurd ha.symm (hd _ _ _)
    exact h.fresh a i n e ha
  · intro a i n ha
    rcases old a _ ha with ha | ha
    · exact hdone i n ha.symm
    · exact h.done a i n ha

theorem oneInv_step (hX : X.Laws) {s0 : CAState} (hr0 : Rep s0.pool) {m : CAConc} (hc : ConcInv c X s0 m) (h : OneInv X s0 m)
    (e : CAConcEvent)
    (he : match e with
      | .run k => ∀ i n, m.hs[k]? = some (.found i n) → ∀ (k' : Nat) n' ext, m.hs[k']? ≠ some (.decoded i n' ext)
      | _ => True) : OneInv X s0 (caConcStep X c m e) ∧ Grows X m.s (caConcStep X c m e).s := by
  cases e with
  | sth g =>
    simp only [caConcStep, caReceiveSTH]
    split
    · exact ⟨⟨h.keys, h.place, h.one, h.fresh, h.done⟩, fun _ x hx => ⟨x, hx, List.prefix_refl _⟩⟩
    · exact ⟨⟨h.keys, h.place, h.one, h.fresh, h.done⟩, fun _ x hx => ⟨x, hx, List.prefix_refl _⟩⟩
  | request t =>
    have hp : (requestREV c t m.s).2.pool = m.s.pool := by unfold requestREV; simp only; split <;> rfl
    refine ⟨⟨?_, h.place, h.one, ?_, ?_⟩, ?_⟩
    · simp only [caConcStep, hp]; exact h.keys
    · simp only [caConcStep, hp]; exact h.fresh
    · simp only [caConcStep, hp]; exact h.done
    · intro j x hx; simp only [caConcStep, hp]; exact ⟨x, hx, List.prefix_refl _⟩
  | poi p =>
    have old : ∀ (j : Nat) q, (m.hs ++ [.arrived p])[j]? = some q → q = .arrived p ∨ m.hs[j]? = some q := by
      intro j q hj
      by_cases hlt : j < m.hs.length
      · rw [List.getElem?_append_left hlt] at hj; exact Or.inr hj
      · rw [List.getElem?_append_right (by omega)] at hj
        have := List.mem_of_getElem? hj
        simp only [List.mem_singleton] at this
        exact Or.inl this
    refine ⟨⟨h.keys, ?_, ?_, ?_, ?_⟩, grows_refl _⟩
    · intro q hq
      rcases List.mem_append.1 hq with hq | hq
      · exact h.place q hq
      · simp only [List.mem_singleton] at hq; subst hq; trivial
    · intro a b i n n' e e' ha hb
      rcases old a _ ha with ha | ha
      · cases ha
      rcases old b _ hb with hb | hb
      · cases hb
      exact h.one a b i n n' e e' ha hb
    · intro a i n e ha
      rcases old a _ ha with ha | ha
      · cases ha
      exact h.fresh a i n e ha
    · intro a i n ha
      rcases old a _ ha with ha | ha
      · cases ha
      exact h.done a i n ha
  | run k =>
    simp only [caConcStep]
    cases hq : m.hs[k]? with
    | none => exact ⟨h, grows_refl _⟩
    | some q =>
      simp only
      have hplace := h.place q (List.mem_of_getElem? hq)
      have hklt := (List.getElem?_eq_some_iff.1 hq).1
      -- the certificate of a handler exists
      have hexists : ∀ i (n : LoggerInfo), (CertPool.idx s0.pool.bySubjectKeyId n.poi.subjectKeyId).head? = some i →
          ∃ x, m.s.pool.certs[i]? = some x := by
        intro i n hi
        obtain ⟨l, hl⟩ := hr0
        have hspec := getBySKI_spec hl n.poi.subjectKeyId
        unfold CertPool.getBySKI at hspec
        cases hidx : CertPool.idx s0.pool.bySubjectKeyId n.poi.subjectKeyId with
        | nil => rw [hidx] at hi; cases hi
        | cons j r =>
          rw [hidx] at hi hspec
          simp only [List.head?_cons, Option.some.injEq] at hi
          subst hi
          simp only at hspec
          cases h0 : s0.pool.certs[j]? with
          | none => rw [h0] at hspec; cases hspec
          | some x0 =>
            have := hc.same j
            rw [h0] at this
            cases h1 : m.s.pool.certs[j]? with
            | none => rw [h1] at this; cases this
            | some x => exact ⟨x, rfl⟩
      cases q with
      | arrived p =>
        exact ⟨oneInv_set h k _ trivial (by simp [poiStep]) (by simp [poiStep]), grows_refl _⟩
      | read n =>
        simp only [poiStep, h.keys]
        split
        · rename_i hidx
          exact ⟨oneInv_set h k _ hidx (by simp) (by simp), grows_refl _⟩
        · rename_i i r hidx
          exact ⟨oneInv_set h k _ (by show List.head? _ = _; rw [hidx]; rfl) (by simp) (by simp), grows_refl _⟩
      | found i n =>
        obtain ⟨x, hx⟩ := hexists i n hplace
        simp only [poiStep, hx]
        cases ha : (x.parseExt X).loggers.any fun l => l.sth.signer = n.sth.signer with
        | true =>
          simp only [if_true]
          refine ⟨oneInv_set h k _ hplace (by simp) ?_, grows_refl _⟩
          intro i' n' he'
          cases he'
          obtain ⟨l, hl, hs⟩ := List.any_eq_true.1 ha
          exact ⟨x, hx, l, hl, by simpa using hs⟩
        | false =>
          simp only [Bool.false_eq_true, if_false]
          refine ⟨⟨h.keys, ?_, ?_, ?_, ?_⟩, grows_refl _⟩
          · intro r hr
            rcases List.mem_or_eq_of_mem_set hr with hr | rfl
            · exact h.place r hr
            · exact hplace
          · intro a b i1 n1 n2 e1 e2 h1 h2
            have hno := he i n hq
            by_cases hak : k = a
            · subst hak
              simp only [List.getElem?_set_self hklt, Option.some.injEq, PoiAt.decoded.injEq] at h1
              obtain ⟨rfl, _, _⟩ := h1
              by_cases hbk : k = b
              · exact hbk
              · simp only [List.getElem?_set_ne hbk] at h2
                exact absurd h2 (hno b _ _)
            · simp only [List.getElem?_set_ne hak] at h1
              by_cases hbk : k = b
              · subst hbk
                simp only [List.getElem?_set_self hklt, Option.some.injEq, PoiAt.decoded.injEq] at h2
                obtain ⟨rfl, _, _⟩ := h2
                exact absurd h1 (hno a _ _)
              · simp only [List.getElem?_set_ne hbk] at h2
                exact h.one a b _ _ _ _ _ h1 h2
          · intro a i1 n1 e1 h1 y hy
            by_cases hak : k = a
            · subst hak
              simp only [List.getElem?_set_self hklt, Option.some.injEq, PoiAt.decoded.injEq] at h1
              obtain ⟨rfl, rfl, rfl⟩ := h1
              simp only at hy
              rw [hx] at hy
              cases hy
              rfl
            · simp only [List.getElem?_set_ne hak] at h1
              exact h.fresh a _ _ _ h1 y hy
          · intro a i1 n1 h1
            by_cases hak : k = a
            · subst hak
              simp only [List.getElem?_set_self hklt, Option.some.injEq, reduceCtorEq] at h1
            · simp only [List.getElem?_set_ne hak] at h1
              exact h.done a _ _ h1
      | decoded i n ext =>
        obtain ⟨x, hx⟩ := hexists i n hplace
        have hilt := (List.getElem?_eq_some_iff.1 hx).1
        have hfresh := h.fresh k i n ext hq x hx
        obtain ⟨hh, _⟩ := hc.certs x (List.mem_of_getElem? hx)
        have hpl : ext.Plain := (hc.hs _ (List.mem_of_getElem? hq)).1.plain
        have hpw := writeExt_parse hX hh hpl
        have hlog : ((x.writeExt X ext).parseExt X).loggers = (x.parseExt X).loggers ++ [n] := by rw [hpw, hfresh]
        simp only [poiStep, hx]
        refine ⟨⟨h.keys, ?_, ?_, ?_, ?_⟩, ?_⟩
        · intro r hr
          rcases List.mem_or_eq_of_mem_set hr with hr | rfl
          · exact h.place r hr
          · exact hplace
        · intro a b i1 n1 n2 e1 e2 h1 h2
          have hak : k ≠ a := by
            rintro rfl; simp only [List.getElem?_set_self hklt, Option.some.injEq, reduceCtorEq] at h1
          have hbk : k ≠ b := by
            rintro rfl; simp only [List.getElem?_set_self hklt, Option.some.injEq, reduceCtorEq] at h2
          simp only [List.getElem?_set_ne hak] at h1
          simp only [List.getElem?_set_ne hbk] at h2
          exact h.one a b _ _ _ _ _ h1 h2
        · intro a i1 n1 e1 h1 y hy
          have hak : k ≠ a := by
            rintro rfl; simp only [List.getElem?_set_self hklt, Option.some.injEq, reduceCtorEq] at h1
          simp only [List.getElem?_set_ne hak] at h1
          have hi1 : i ≠ i1 := by
            rintro rfl; exact hak (h.one k a _ _ _ _ _ hq h1)
          simp only [List.getElem?_set_ne hi1] at hy
          exact h.fresh a _ _ _ h1 y hy
        · intro a i1 n1 h1
          have key : ∃ y, m.s.pool.certs[i1]? = some y ∧
              ((∃ l ∈ (y.parseExt X).loggers, l.sth.signer = n1.sth.signer) ∨ i1 = i ∧ n1 = n) := by
            by_cases hak : k = a
            · subst hak
              simp only [List.getElem?_set_self hklt, Option.some.injEq, PoiAt.done.injEq] at h1
              obtain ⟨h1, rfl⟩ := h1
              subst h1
              exact ⟨x, hx, Or.inr ⟨rfl, rfl⟩⟩
            · simp only [List.getElem?_set_ne hak] at h1
              obtain ⟨y, hy, hl⟩ := h.done a _ _ h1
              exact ⟨y, hy, Or.inl hl⟩
          obtain ⟨y, hy, hcase⟩ := key
          simp only
          by_cases hii : i = i1
          · subst hii
            rw [hx] at hy
            cases hy
            refine ⟨_, List.getElem?_set_self hilt, ?_⟩
            rw [hlog]
            rcases hcase with ⟨l, hl, hs⟩ | ⟨_, rfl⟩
            · exact ⟨l, List.mem_append_left _ hl, hs⟩
            · exact ⟨n1, by simp, rfl⟩
          · rw [List.getElem?_set_ne hii]
            rcases hcase with hl | ⟨e, _⟩
            · exact ⟨y, hy, hl⟩
            · exact absurd e.symm hii
        · intro j y hy
          simp only
          by_cases hij : i = j
          · subst hij
            rw [hx] at hy
            cases hy
            exact ⟨_, List.getElem?_set_self hilt, by rw [hlog]; exact List.prefix_append _ _⟩
          · rw [List.getElem?_set_ne hij]; exact ⟨y, hy, List.prefix_refl _⟩
      | done i n =>
        refine ⟨oneInv_set h k _ hplace (by simp [poiStep]) ?_, grows_refl _⟩
        intro i' n' he'
        simp only [poiStep, PoiAt.done.injEq] at he'
        obtain ⟨rfl, rfl⟩ := he'
        exact h.done k _ _ hq

theorem oneInv_run (hX : X.Laws) {s0 : CAState} (hr0 : Rep s0.pool) (h : List CAConcEvent) (he : ∀ e ∈ h, PlainConc e)
    {m : CAConc} (hc : ConcInv c X s0 m) (hm : OneInv X s0 m) (ho : OneAtATime c X m h) :
    ConcInv c X s0 (caConcRun X c m h) ∧ OneInv X s0 (caConcRun X c m h) ∧ Grows X m.s (caConcRun X c m h).s := by
  induction h generalizing m with
  | nil => exact ⟨hc, hm, grows_refl _⟩
  | cons e r ih =>
    obtain ⟨h1, h2⟩ := oneInv_step c hX hr0 hc hm e ho.1
    obtain ⟨g1, g2, g3⟩ := ih (fun e' he' => he e' (List.mem_cons_of_mem _ he')) (caConcStep_inv c hX hc e (he e (by simp))) h1 ho.2
    exact ⟨g1, g2, grows_trans h2 g3⟩

theorem oneAtATime_append (h h' : List CAConcEvent) (m : CAConc) (ho : OneAtATime c X m (h ++ h')) :
    OneAtATime c X m h ∧ OneAtATime c X (caConcRun X c m h) h' := by
  induction h generalizing m with
  | nil => exact ⟨trivial, ho⟩
  | cons e r ih =>
    obtain ⟨h1, h2⟩ := ih (caConcStep X c m e) ho.2
    exact ⟨⟨ho.1, h1⟩, h2⟩

/-- C127, what holds: if no handler decodes the extension of a certificate while another is about to write it, then entries never
disappear from a certificate, and every proof that has been answered, if its certificate is in the pool, has an entry by the
signer of its tree head in it. Handlers of different certificates, tree heads and requests interleave at will. Missing for
the full property: handlers of one certificate that overlap. -/
theorem C127_one_at_a_time_partial (hX : X.Laws) (s : CAState) (hs : CAReach c root X s) (h h' : List CAConcEvent)
    (he : ∀ e ∈ h ++ h', PlainConc e) (ho : OneAtATime c X ⟨s, []⟩ (h ++ h')) :
    let m1 := caConcRun X c ⟨s, []⟩ h
    let m2 := caConcRun X c ⟨s, []⟩ (h ++ h')
    (∀ (j : Nat) x1, m1.s.pool.certs[j]? = some x1 →
      ∃ x2, m2.s.pool.certs[j]? = some x2 ∧ (x1.parseExt X).loggers <+: (x2.parseExt X).loggers) ∧
    ∀ oi n, PoiAt.done oi n ∈ m2.hs → m2.s.pool.getBySKI n.poi.subjectKeyId = .ok none ∨
      ∃ x l, m2.s.pool.getBySKI n.poi.subjectKeyId = .ok (some x) ∧ l ∈ (x.parseExt X).loggers ∧ l.sth.signer = n.sth.signer := by
  obtain ⟨_, _, hr⟩ := caReach_inv c root hX hs
  have hc0 := concInv_init c root hX hs
  have h0 : OneInv X s ⟨s, []⟩ :=
    ⟨rfl, (by intro q hq; cases hq), (by intro a b i n n' e e' ha; simp at ha), (by intro a i n e ha; simp at ha),
      (by intro a i n ha; simp at ha)⟩
  obtain ⟨o1, o2⟩ := oneAtATime_append c h h' _ ho
  obtain ⟨c1, i1, _⟩ := oneInv_run c hX hr h (fun e hx => he e (List.mem_append_left _ hx)) hc0 h0 o1
  obtain ⟨c2, i2, g2⟩ := oneInv_run c hX hr h' (fun e hx => he e (List.mem_append_right _ hx)) c1 i1 o2
  intro m1 m2
  have hm2 : m2 = caConcRun X c (caConcRun X c ⟨s, []⟩ h) h' := caConcRun_append c _ h h'
  rw [hm2]
  refine ⟨g2, ?_⟩
  intro oi n hn
  have hpl := i2.place _ hn
  obtain ⟨k, _, hk⟩ := List.getElem_of_mem hn
  have hk' : (caConcRun X c (caConcRun X c ⟨s, []⟩ h) h').hs[k]? = some (.done oi n) := by
    rw [List.getElem?_eq_some_iff]; exact ⟨_, hk⟩
  cases oi with
  | none =>
    left
    unfold CertPool.getBySKI
    rw [i2.keys, show CertPool.idx s.pool.bySubjectKeyId n.poi.subjectKeyId = [] from hpl]
  | some i =>
    right
    obtain ⟨x, hx, l, hl, hsig⟩ := i2.done k i n hk'
    refine ⟨x, l, ?_, hl, hsig⟩
    unfold CertPool.getBySKI
    rw [i2.keys]
    cases hidx : CertPool.idx s.pool.bySubjectKeyId n.poi.subjectKeyId with
    | nil => simp only [PlaceOk, hidx] at hpl; cases hpl
    | cons j r =>
      simp only [PlaceOk, hidx, List.head?_cons, Option.some.injEq] at hpl
      subst hpl
      simp only [hx]

/-! ### Concrete cases -/

/-- A check of `OneAtATime`. -/
def oneAtATimeB (X : XLib) (m : CAConc) : List CAConcEvent → Bool
  | [] => true
  | e :: h => (match e with
      | .run k => match m.hs[k]? with
        | some (.found i _) => m.hs.all fun q => match q with
          | .decoded i' _ _ => i' != i
          | _ => true
        | _ => true
      | _ => true) && oneAtATimeB X (caConcStep X c m e) h

theorem oneAtATimeB_sound (m : CAConc) (h : List CAConcEvent) (hb : oneAtATimeB c X m h = true) : OneAtATime c X m h := by
  induction h generalizing m with
  | nil => trivial
  | cons e r ih =>
    have hr : oneAtATimeB c X (caConcStep X c m e) r = true := by
      cases e <;> simp only [oneAtATimeB, Bool.and_eq_true] at hb <;> exact hb.2
    refine ⟨?_, ih _ hr⟩
    cases e with
    | run k =>
      simp only [oneAtATimeB, Bool.and_eq_true] at hb
      intro i n hk k' n' ext hk'
      have h1 := hb.1
      simp only [hk] at h1
      have := List.all_eq_true.1 h1 _ (List.mem_of_getElem? hk')
      simp at this
    | _ => trivial

namespace Ref

/-- The keys of two loggers. -/
def conf2L (self : Str) : CryptoConfig lib :=
  { conf self with signPublicMap := rsaMap [go!"L1", go!"L2", go!"C1", go!"M1", go!"G1", go!"G2", go!"G3"] }

/-- A CA with two certificates and two loggers. -/
def caConf2L : CAConf lib := ⟨go!"C1", conf2L (go!"C1"), 2, 0, 0⟩

/-- A tree head of the logger `l`. -/
def sthOf (l : Str) : GossipObj :=
  { sth with signer := l, payload := ⟨l, sth.payload.p1, sth.payload.p2⟩, sig := ⟨rsaStr l (l ++ sth.payload.p1 ++ sth.payload.p2), []⟩ }

/-- A proof of the logger `l` for certificate `j` of C1. -/
def poiOf (l : Str) (j : Nat) : POI := { poi := none, issuer := go!"C1", loggerID := l, subjectKeyId := (y j).subjectKeyId }

/-- What C1 gets before the proofs. -/
def twoLogEvents : List CAEvent := [.start (leafKey 0), .sth (sthOf (go!"L1")), .sth (sthOf (go!"L2"))]

/-- Handlers 0 and 1 have L1's proofs for the certificates 1 and 2, handlers 2 and 3 those of L2. -/
def fourProofs : List CAConcEvent :=
  [.poi (poiOf (go!"L1") 0), .poi (poiOf (go!"L1") 1), .poi (poiOf (go!"L2") 0), .poi (poiOf (go!"L2") 1)]

/-- C1 with its two certificates and the tree heads of both loggers, then the proofs in the given schedule. -/
def twoLoggers (sched : List CAConcEvent) : Option CAConc :=
  (caRun xlib caConf2L caRoot caInit twoLogEvents).map fun s => caConcRun xlib caConf2L ⟨s, []⟩ (fourProofs ++ sched)

/-- Which handlers have answered, and the loggers in each certificate. -/
def concView (m : CAConc) : List Bool × List (List Str) :=
  (m.hs.map (fun q => match q with | .done (some _) _ => true | _ => false),
    m.s.pool.certs.map fun x => (x.parseExt xlib).loggers.map (·.sth.signer))

/-- Handlers of different certificates at once. -/
def sidewise : List CAConcEvent := [.run 0, .run 1, .run 0, .run 1, .run 0, .run 1, .run 0, .run 1,
  .run 2, .run 3, .run 2, .run 3, .run 2, .run 3, .run 2, .run 3]

/-- C127: the four proofs of two loggers. Certificate by certificate at once, both entries are there. If the two handlers of a
certificate both decode before the first writes, L1's entry is lost in both certificates though all four proofs have been
answered. -/
example :
    (twoLoggers sidewise).map concView = some ([true, true, true, true], [[go!"L1", go!"L2"], [go!"L1", go!"L2"]]) ∧
    (twoLoggers [.run 0, .run 0, .run 0, .run 2, .run 2, .run 2, .run 0, .run 2,
      .run 1, .run 1, .run 1, .run 3, .run 3, .run 3, .run 1, .run 3]).map concView =
      some ([true, true, true, true], [[go!"L2"], [go!"L2"]]) := by decide +kernel

/-- The hypotheses of `C127_violated_lost_entry`: after three steps of each of the handlers 0 and 2 short of decoding, both are at
certificate 0, which has no entry. -/
example : (twoLoggers [.run 0, .run 0, .run 2, .run 2]).map (fun m => (m.hs.map (fun q => match q with
      | .found i n => some (i, n.sth.signer)
      | _ => none), (concView m).2)) =
    some ([some (0, go!"L1"), none, some (0, go!"L2"), none], [[], []]) := by decide +kernel

/-- The hypotheses of `C127_one_at_a_time_partial`. -/
example : ∃ s, CAReach caConf2L caRoot xlib s ∧ (∀ e ∈ fourProofs ++ sidewise, PlainConc e) ∧
    OneAtATime caConf2L xlib ⟨s, []⟩ (fourProofs ++ sidewise) := by
  have hrun : (caRun xlib caConf2L caRoot caInit twoLogEvents).isSome = true := by decide +kernel
  have hb : ((caRun xlib caConf2L caRoot caInit twoLogEvents).map fun s =>
      (decide (s.issued.length < 2 ^ 63), oneAtATimeB caConf2L xlib ⟨s, []⟩ (fourProofs ++ sidewise))) = some (true, true) := by
    decide +kernel
  obtain ⟨s, hs⟩ := Option.isSome_iff_exists.1 hrun
  rw [hs] at hb
  simp only [Option.map_some, Option.some.injEq, Prod.mk.injEq, decide_eq_true_eq] at hb
  have hg : ∀ l ∈ [go!"L1", go!"L2"], (sthOf l).Plain := by
    intro l hl
    simp only [List.mem_cons, List.not_mem_nil, or_false] at hl
    rcases hl with rfl | rfl <;>
      exact ⟨(by unfold Ascii; decide +kernel), (by unfold Ascii; decide +kernel), ⟨by decide +kernel, by unfold Ascii; decide +kernel⟩,
        (by unfold Ascii; decide +kernel), (by intro s hs; cases hs), ⟨by unfold Ascii; decide +kernel, by unfold Ascii; decide +kernel⟩,
        (by unfold Ascii; decide +kernel), (by unfold Ascii; decide +kernel),
        ⟨by unfold Ascii; decide +kernel, by unfold Ascii; decide +kernel, by unfold Ascii; decide +kernel⟩⟩
  have hp : ∀ l j, Ascii l → (poiOf l j).Plain := fun l j hl =>
    ⟨(by intro q hq; cases hq), by show Ascii (go!"C1"); unfold Ascii; decide, hl⟩
  have h1 : Ascii (go!"L1") := by unfold Ascii; decide
  have h2 : Ascii (go!"L2") := by unfold Ascii; decide
  refine ⟨s, ⟨lib.sha256, go!"C1", go!"rootkey", twoLogEvents, ?_, hs, hb.1⟩, ?_, oneAtATimeB_sound caConf2L _ _ hb.2⟩
  · intro e he
    simp only [twoLogEvents, List.mem_cons, List.not_mem_nil, or_false] at he
    rcases he with rfl | rfl | rfl
    · trivial
    · exact hg _ (by simp)
    · exact hg _ (by simp)
  · intro e he
    simp only [fourProofs, sidewise, List.mem_append, List.mem_cons, List.not_mem_nil, or_false] at he
    rcases he with (rfl | rfl | rfl | rfl) | he
    · exact hp _ 0 h1
    · exact hp _ 1 h1
    · exact hp _ 0 h2
    · exact hp _ 1 h2
    · rcases he with rfl | rfl | rfl | rfl | rfl | rfl | rfl | rfl | rfl | rfl | rfl | rfl | rfl | rfl | rfl | rfl <;> trivial

end Ref

end CTng
