import Verif.Props.MonConc
import Verif.Props.ClientExamples
import Verif.Props.Crypto
import Verif.Props.Saves
/- C151 and C152: what is sent to a monitor, or given to a client, does not end it. -/
set_option autoImplicit false

namespace CTng
open Mon Client
variable {L : Lib}

/-! ### When a verification panics -/

/-- When the signature libraries panic: crypto/rsa when it is called with the zero public key, which is what the code reads for an id that
is not registered (its modulus is a nil pointer; Go 1.19, the version named in go.mod), FastAggregateVerify when it is called on a nil
signature, and nothing else. -/
structure Lib.Panics (L : Lib) : Prop where
  rsa : ∀ p d s, L.rsaVerify p d s = .panic ↔ p = none
  bls : ∀ σ p m, L.blsVerify σ p m ≠ .panic
  agg : ∀ t ps m, L.blsFastAggVerify t ps m = .panic ↔ t = none

/-- A signature string that can be read and names somebody whose key is not registered. -/
def Stray (c : CryptoConfig L) (str : Str) : Prop := ∃ r, RSASig.fromStr L str = some r ∧ c.signPublicMap.get r.id = none

/-- The objects whose verification panics: a statement or accusation signed in the name of somebody whose key is not registered, a
conflict proof with two readable signatures one of which is, and a threshold-signed object whose signature is not JSON. -/
def Fatal (c : CryptoConfig L) (g : GossipObj) : Prop :=
  (c.signScheme = go!"rsa" ∧ (g.type = .STH_INIT ∨ g.type = .REV_INIT ∨ g.type = .ACC_INIT) ∧ g.sig.s0 ≠ [] ∧ g.payload.p0 ≠ [] ∧
    Stray c g.sig.s0) ∨
  (c.signScheme = go!"rsa" ∧ g.type = .CON_INIT ∧ (∃ r, RSASig.fromStr L g.sig.s0 = some r) ∧
    (∃ r, RSASig.fromStr L g.sig.s1 = some r) ∧ (Stray c g.sig.s0 ∨ Stray c g.sig.s1)) ∨
  (c.thresholdScheme = go!"bls" ∧ (g.type = .STH_FULL ∨ g.type = .REV_FULL ∨ g.type = .ACC_FULL) ∧ g.sig.s0 ≠ [] ∧ g.payload.p0 ≠ [] ∧
    L.jsonThreshold g.sig.s0 = none)

/-- The revocations whose SRH ends the process that checks it: it names somebody whose key is not registered, or is not a signature
string at all (and nobody is registered under the empty name). -/
def FatalSRH (X : XLib) (c : CryptoConfig L) (g : GossipObj) : Prop :=
  Stray c (getSRHandDCRV X g).1 ∨ (RSASig.fromStr L (getSRHandDCRV X g).1 = none ∧ c.signPublicMap.get [] = none)

theorem config_verify_panic (P : L.Panics) (c : CryptoConfig L) (msg : Str) (r : RSASig) :
    c.verify msg r = .panic ↔ c.signScheme = go!"rsa" ∧ c.signPublicMap.get r.id = none := by
  unfold CryptoConfig.verify rsaVerifyMsg
  split
  · rename_i hs
    rw [← P.rsa _ (L.sha256 msg) r.sig]
    cases h : L.rsaVerify (c.signPublicMap.get r.id) (L.sha256 msg) r.sig <;> simp [hs]
  · rename_i hs; simp [hs]

theorem rsaPayload_panic (P : L.Panics) (c : CryptoConfig L) (g : GossipObj) : verifyRSAPayload g c = .panic ↔
    c.signScheme = go!"rsa" ∧ g.sig.s0 ≠ [] ∧ g.payload.p0 ≠ [] ∧ Stray c g.sig.s0 := by
  unfold verifyRSAPayload Stray
  split
  · rename_i hne
    cases hf : RSASig.fromStr L g.sig.s0 with
    | none => simp
    | some r => simp [config_verify_panic P, hne.1, hne.2]
  · rename_i hne
    simp only [reduceCtorEq, false_iff]
    rintro ⟨_, h1, h2, _⟩
    exact hne ⟨h1, h2⟩

theorem con_panic (P : L.Panics) (c : CryptoConfig L) (g : GossipObj) : verifyCON g c = .panic ↔
    c.signScheme = go!"rsa" ∧ (∃ r, RSASig.fromStr L g.sig.s0 = some r) ∧ (∃ r, RSASig.fromStr L g.sig.s1 = some r) ∧
      (Stray c g.sig.s0 ∨ Stray c g.sig.s1) := by
  unfold verifyCON Stray
  cases h1 : RSASig.fromStr L g.sig.s0 with
  | none => simp
  | some r1 =>
    cases h2 : RSASig.fromStr L g.sig.s1 with
    | none => simp
    | some r2 =>
      have e1 := config_verify_panic P c g.payload.p1 r1
      have e2 := config_verify_panic P c g.payload.p2 r2
      simp only [Option.some.injEq, exists_eq', true_and, exists_eq_left']
      rw [and_or_left, ← e1, ← e2]
      cases c.verify g.payload.p1 r1 <;> cases c.verify g.payload.p2 r2 <;> simp

theorem frag_panic (P : L.Panics) (c : CryptoConfig L) (g : GossipObj) : verifyPayloadFrag g c ≠ .panic := by
  unfold verifyPayloadFrag
  split
  · have hn : c.fragmentVerify g.payload.cat (SigFragment.fromStr L g.sig.s0).1 ≠ .panic := by
      unfold CryptoConfig.fragmentVerify
      split
      · have hs : ∃ σ, (SigFragment.fromStr L g.sig.s0).1.sign = some σ := by
          unfold SigFragment.fromStr
          split
          · exact ⟨_, rfl⟩
          · split <;> exact ⟨_, rfl⟩
        obtain ⟨σ, hσ⟩ := hs
        unfold SigFragment.verify
        rw [hσ]
        have := P.bls σ ((c.thresholdPublicMap.get (SigFragment.fromStr L g.sig.s0).1.id).getD L.blsZeroPub) g.payload.cat
        revert this
        simp only
        cases L.blsVerify σ ((c.thresholdPublicMap.get (SigFragment.fromStr L g.sig.s0).1.id).getD L.blsZeroPub) g.payload.cat <;> simp
      · simp
    revert hn
    cases c.fragmentVerify g.payload.cat (SigFragment.fromStr L g.sig.s0).1 <;> simp
  · simp

theorem full_panic (P : L.Panics) (c : CryptoConfig L) (g : GossipObj) : verifyPayloadThreshold g c = .panic ↔
    c.thresholdScheme = go!"bls" ∧ g.sig.s0 ≠ [] ∧ g.payload.p0 ≠ [] ∧ L.jsonThreshold g.sig.s0 = none := by
  unfold verifyPayloadThreshold
  split
  · rename_i hne
    have hs : (ThresholdSig.fromStr L g.sig.s0).1.sign = none ↔ L.jsonThreshold g.sig.s0 = none := by
      unfold ThresholdSig.fromStr
      cases L.jsonThreshold g.sig.s0 with
      | none => simp
      | some p =>
        obtain ⟨a, b⟩ := p
        cases hb : L.blsDeHex a <;> simp [hb]
    have hn : c.thresholdVerify g.payload.cat (ThresholdSig.fromStr L g.sig.s0).1 = .panic ↔
        c.thresholdScheme = go!"bls" ∧ L.jsonThreshold g.sig.s0 = none := by
      unfold CryptoConfig.thresholdVerify
      split
      · rename_i hb
        unfold ThresholdSig.verify
        rw [← hs, ← P.agg _ ((ThresholdSig.fromStr L g.sig.s0).1.ids.map fun i => (c.thresholdPublicMap.get i).getD L.blsZeroPub) g.payload.cat]
        cases L.blsFastAggVerify (ThresholdSig.fromStr L g.sig.s0).1.sign
          ((ThresholdSig.fromStr L g.sig.s0).1.ids.map fun i => (c.thresholdPublicMap.get i).getD L.blsZeroPub) g.payload.cat <;> simp [hb]
      · rename_i hb; simp [hb]
    rw [show (c.thresholdScheme = go!"bls" ∧ g.sig.s0 ≠ [] ∧ g.payload.p0 ≠ [] ∧ L.jsonThreshold g.sig.s0 = none) ↔
      (c.thresholdScheme = go!"bls" ∧ L.jsonThreshold g.sig.s0 = none) from ⟨fun h => ⟨h.1, h.2.2.2⟩, fun h => ⟨h.1, hne.1, hne.2, h.2⟩⟩, ← hn]
    cases c.thresholdVerify g.payload.cat (ThresholdSig.fromStr L g.sig.s0).1 <;> simp
  · rename_i hne
    simp only [reduceCtorEq, false_iff]
    rintro ⟨_, h1, h2, _⟩
    exact hne ⟨h1, h2⟩

/-- The verification of an object panics exactly on the fatal ones. -/
theorem verify_panic_iff (P : L.Panics) (c : CryptoConfig L) (g : GossipObj) : g.verify c = .panic ↔ Fatal c g := by
  have hr := rsaPayload_panic P c g
  have hc := con_panic P c g
  have hf := full_panic P c g
  have hg := frag_panic P c g
  unfold GossipObj.verify Fatal
  split <;> rename_i ht <;> simp [ht, hr, hc, hf, hg]

theorem srh_panic_iff (P : L.Panics) (X : XLib) (c : CryptoConfig L) (crv : GoMap Str BitSet) (g : GossipObj) (d : BitSet)
    (ca period : Str) : verifySRH X c crv (getSRHandDCRV X g).1 d ca period = .panic ↔ FatalSRH X c g := by
  unfold verifySRH FatalSRH Stray
  generalize (getSRHandDCRV X g).1 = srh
  have hv : (RSASig.fromStr L srh = none ∧ (RSASig.value L srh).id = []) ∨ RSASig.fromStr L srh = some (RSASig.value L srh) := by
    unfold RSASig.fromStr RSASig.value
    cases L.jsonStrMap srh with
    | none => exact .inl ⟨rfl, rfl⟩
    | some m =>
      simp only
      cases hexDecode ((m.get (go!"sig")).getD []) with
      | none => exact .inl ⟨rfl, rfl⟩
      | some b => exact .inr rfl
  have hp : ∀ msg sig, rsaVerifyMsg msg sig (c.signPublicMap.get (RSASig.value L srh).id) = .panic ↔
      c.signPublicMap.get (RSASig.value L srh).id = none := by
    intro msg sig
    rw [← P.rsa _ (L.sha256 msg) sig.sig]
    unfold rsaVerifyMsg
    cases L.rsaVerify (c.signPublicMap.get (RSASig.value L srh).id) (L.sha256 msg) sig.sig <;> simp
  simp only [hp]
  rcases hv with ⟨h1, h2⟩ | h
  · simp [h1, h2]
  · simp [h]

/-! ### C151: monitors -/

variable (X : XLib)

/-- A query that got an answer ends the process exactly on these. -/
def EndsQuery (c : MonConf L) (k : EntityKind) (g : GossipObj) : Prop :=
  Fatal c.crypto g ∨ (k = .ca ∧ g.verify c.crypto = .ok ∧ FatalSRH X c.crypto g)

theorem gStep_none_iff (P : L.Panics) (c : MonConf L) (clk : Clock) (s : MonState) (G : MonG) :
    gStep X c clk s G = none ↔ ∃ u k g, G = .answered u k (.obj g) ∧ EndsQuery X c k g := by
  cases G with
  | answered u k f =>
    cases f with
    | failed => simp [gStep]
    | obj g =>
      have h1 := verify_panic_iff P c.crypto g
      have h2 := srh_panic_iff P X c.crypto s.crv g (getSRHandDCRV X g).2 g.payload.p0 g.period
      simp only [gStep, EndsQuery, MonG.answered.injEq, Fetched.obj.injEq]
      rw [show (∃ u' k' g', (u = u' ∧ k = k' ∧ g = g') ∧ (Fatal c.crypto g' ∨ k' = EntityKind.ca ∧ g'.verify c.crypto = .ok ∧
          FatalSRH X c.crypto g')) ↔ (Fatal c.crypto g ∨ k = EntityKind.ca ∧ g.verify c.crypto = .ok ∧ FatalSRH X c.crypto g) from
        ⟨fun ⟨_, _, _, ⟨_, hk, hg⟩, h⟩ => by subst hk; subst hg; exact h, fun h => ⟨u, k, g, ⟨rfl, rfl, rfl⟩, h⟩⟩, ← h1, ← h2]
      cases hv : g.verify c.crypto with
      | panic => simp
      | err e => simp
      | ok =>
        cases k with
        | logger => simp
        | ca =>
          cases verifySRH X c.crypto s.crv (getSRHandDCRV X g).1 (getSRHandDCRV X g).2 g.payload.p0 g.period <;> simp
  | check g => simp only [gStep]; split <;> (try split) <;> simp
  | _ => simp [gStep]

/-- A monitor's process is ended only in a step of a query with an answer that ends it. -/
theorem monC_dead_step (P : L.Panics) (c : MonConf L) (x : MonC) (e : MonCEvent) (hd : x.dead = false) :
    (monCStep X c x e).dead = true ↔ ∃ i clk u k g, e = .run i clk ∧ x.gs[i]? = some (.answered u k (.obj g)) ∧ EndsQuery X c k g := by
  unfold monCStep
  rw [if_neg (by simp [hd])]
  cases e with
  | run i clk =>
    cases hG : x.gs[i]? with
    | none => simp only [hG, hd]; simp [hG]
    | some G =>
      have hn := gStep_none_iff X P c clk x.m G
      cases hs : gStep X c clk x.m G with
      | none =>
        obtain ⟨u, k, g, rfl, hE⟩ := hn.1 hs
        simp only [hG, hs, true_iff]
        exact ⟨i, clk, u, k, g, rfl, hG, hE⟩
      | some p =>
        obtain ⟨m', G'⟩ := p
        simp only [hG, hs, hd, Bool.false_eq_true, false_iff, MonCEvent.run.injEq]
        rintro ⟨i', clk', u, k, g, ⟨rfl, rfl⟩, h, hE⟩
        rw [hG, Option.some.injEq] at h
        rw [hn.2 ⟨u, k, g, h, hE⟩] at hs
        cases hs
  | gossip b => simp [hd]
  | query clk => simp [hd]
  | finish => simp [hd]
  | answer i f => simp only; split <;> simp [hd]
  | wait i => simp only; split <;> simp [hd]
  | crv i => simp only; split <;> simp [hd]

/-- The answers being worked on were given to queries of the monitor. -/
theorem monC_answered (c : MonConf L) (h : List MonCEvent) (u : Str) (k : EntityKind) (f : Fetched)
    (hG : MonG.answered u k f ∈ (monCRun X c .init h).gs) : ∃ i, MonCEvent.answer i f ∈ h := by
  induction h using snoc_ind with
  | h0 => cases hG
  | h1 h e ih =>
    rw [monCRun_append] at hG
    simp only [List.mem_append, List.mem_singleton]
    have hG : MonG.answered u k f ∈ (monCStep X c (monCRun X c .init h) e).gs := hG
    rcases monCStep_cases X c (monCRun X c .init h) e with ⟨i, clk, G1, G', m', rfl, _, hi, hs, hx⟩ | ⟨_, _, _, _, _, _, _, _, _, _, hx⟩
    · rw [hx] at hG
      rcases List.mem_or_eq_of_mem_set hG with hG | hG
      · obtain ⟨j, hj⟩ := ih hG; exact ⟨j, .inl hj⟩
      · exfalso
        subst hG
        have hne : ∀ (s : MonState) (g : GossipObj), (processThen c s g).2 ≠ .answered u k f := by
          intro s g; unfold processThen; simp only; split <;> simp
        cases G1 with
        | answered u' k' f' =>
          simp only [gStep] at hs
          split at hs
          · cases hs
          · rename_i g
            split at hs
            · cases hs
            · cases hs
            · split at hs
              · simp only [Option.some.injEq] at hs; exact hne _ _ (congrArg Prod.snd hs)
              · split at hs
                · cases hs
                · cases hs
                · simp only [Option.some.injEq] at hs; exact hne _ _ (congrArg Prod.snd hs)
        | check g =>
          simp only [gStep] at hs
          split at hs
          · cases hs
          · split at hs
            · cases hs
            · cases hs
            · simp only [Option.some.injEq] at hs; exact hne _ _ (congrArg Prod.snd hs)
        | put g => simp only [gStep, Option.some.injEq, Prod.mk.injEq] at hs; obtain ⟨_, hs⟩ := hs; split at hs <;> cases hs
        | ending a =>
          simp only [gStep, Option.some.injEq] at hs
          cases a <;> simp [endStep] at hs
        | waiting e' k' => simp only [gStep, Option.some.injEq, Prod.mk.injEq] at hs; obtain ⟨_, hs⟩ := hs; split at hs <;> split at hs <;> cases hs
        | silent e' => simp only [gStep, Option.some.injEq, Prod.mk.injEq] at hs; obtain ⟨_, hs⟩ := hs; split at hs <;> cases hs
        | accuse e' => simp only [gStep, Option.some.injEq, Prod.mk.injEq] at hs; obtain ⟨_, hs⟩ := hs; split at hs <;> cases hs
        | crvLook key d => simp only [gStep, Option.some.injEq, Prod.mk.injEq] at hs; obtain ⟨_, hs⟩ := hs; split at hs <;> cases hs
        | _ => simp [gStep] at hs
    · rcases hx with hx | ⟨G1, hx, hc⟩
      · rw [hx] at hG; obtain ⟨j, hj⟩ := ih hG; exact ⟨j, .inl hj⟩
      · rw [hx, List.mem_append, List.mem_singleton] at hG
        rcases hG with hG | hG
        · obtain ⟨j, hj⟩ := ih hG; exact ⟨j, .inl hj⟩
        · subst hG
          rcases hc with ⟨b, rfl, hc⟩ | ⟨i, u', k', f', rfl, hc⟩ | ⟨i, u', k', rfl, hc⟩ | ⟨i, u', k', rfl, hc⟩ | ⟨rfl, hc⟩ <;> cases hc
          exact ⟨i, .inr rfl⟩

/-- C151, the part that holds: whatever its gossiper posts to a monitor and in whatever order its goroutines run, its process is ended
only by an answer to one of its queries: a statement signed in the name of somebody whose key the monitor does not have, a
threshold-signed object whose signature is not JSON, or a revocation that verifies, with an SRH that is no signature or names somebody
whose key it does not have. Missing for the full property: `C151_violated_one_answer`. (The Go runtime may also end the process for
unlocked accesses to maps, see C129.) -/
theorem C151_only_by_answers_partial (P : L.Panics) (c : MonConf L) (h : List MonCEvent) (hd : (monCRun X c .init h).dead = true) :
    ∃ i g, MonCEvent.answer i (.obj g) ∈ h ∧
      (Fatal c.crypto g ∨ (g.verify c.crypto = .ok ∧ FatalSRH X c.crypto g)) := by
  induction h using snoc_ind with
  | h0 => cases hd
  | h1 h e ih =>
    rw [monCRun_append] at hd
    have hd : (monCStep X c (monCRun X c .init h) e).dead = true := hd
    simp only [List.mem_append, List.mem_singleton]
    by_cases hx : (monCRun X c .init h).dead = true
    · obtain ⟨i, g, h1, h2⟩ := ih hx
      exact ⟨i, g, .inl h1, h2⟩
    · obtain ⟨i, clk, u, k, g, rfl, hG, hE⟩ := (monC_dead_step X P c _ e (by simpa using hx)).1 hd
      obtain ⟨j, hj⟩ := monC_answered X c h u k _ (List.mem_of_getElem? hG)
      exact ⟨j, g, .inl hj, hE.imp id fun y => y.2⟩

theorem answered_ends (P : L.Panics) (c : MonConf L) {x : MonC} {i : Nat} {u : Str} {k : EntityKind} {g : GossipObj} (hd : x.dead = false)
    (hq : x.m.queries[i]? = some (u, k)) (hE : EndsQuery X c k g) (clk : Clock) :
    (monCRun X c x [.answer i (.obj g), .run x.gs.length clk]).dead = true := by
  have e1 : monCStep X c x (.answer i (.obj g)) =
      { x with m := { x.m with queries := x.m.queries.eraseIdx i }, gs := x.gs ++ [.answered u k (.obj g)] } := by
    unfold monCStep
    rw [if_neg (by simp [hd])]
    simp only [hq]
  rw [monCRun_cons, e1]
  refine (monC_dead_step X P c
    { x with m := { x.m with queries := x.m.queries.eraseIdx i }, gs := x.gs ++ [.answered u k (.obj g)] } (.run x.gs.length clk) hd).2
    ⟨x.gs.length, clk, u, k, g, rfl, ?_, hE⟩
  show (x.gs ++ [_])[x.gs.length]? = _
  simp

/-- An object signed in the name of `id`. -/
def strayObj (id : Str) : GossipObj := { GossipObj.zero with type := .STH_INIT, payload := ⟨go!"L", [], []⟩, sig := ⟨RSASig.toStr ⟨[], id⟩, []⟩ }

theorem stray_fatal (J : L.JsonLaws) (c : CryptoConfig L) (hs : c.signScheme = go!"rsa") (id : Str) (hid : Safe id)
    (hn : c.signPublicMap.get id = none) : Fatal c (strayObj id) :=
  .inl ⟨hs, .inl rfl, by simp [strayObj, RSASig.toStr], by simp [strayObj], ⟨_, C10_rsa_roundtrip J ⟨[], id⟩ hid, hn⟩⟩

/-- C151 is false: there is one object that ends the process of every monitor, in whatever state, that gets it as the answer to one of its
queries, from a logger or a CA; the object needs no key. So every logger and CA can end all monitors. -/
theorem C151_violated_one_answer (P : L.Panics) (J : L.JsonLaws) (id : Str) (hid : Safe id) : ∃ g : GossipObj,
    ∀ (c : MonConf L), c.crypto.signScheme = go!"rsa" → c.crypto.signPublicMap.get id = none →
      ∀ (x : MonC) (i : Nat) (u : Str) (k : EntityKind) (clk : Clock), x.dead = false → x.m.queries[i]? = some (u, k) →
        (monCRun X c x [.answer i (.obj g), .run x.gs.length clk]).dead = true := by
  refine ⟨strayObj id, fun c hs hn x i u k clk hd hq => ?_⟩
  exact answered_ends X P c hd hq (.inl (stray_fatal J c.crypto hs id hid hn)) clk

/-- C151 is false, too, for objects that verify: a revocation signed by its CA whose SRH is the empty text ends every monitor that asks
the CA and has its key. -/
theorem C151_violated_empty_srh (P : L.Panics) (c : MonConf L) (he : c.crypto.signPublicMap.get [] = none) (hj : L.jsonStrMap [] = none)
    (g : GossipObj) (hv : g.verify c.crypto = .ok) (hg : (getSRHandDCRV X g).1 = []) (x : MonC) (i : Nat) (u : Str) (clk : Clock)
    (hd : x.dead = false) (hq : x.m.queries[i]? = some (u, .ca)) :
    (monCRun X c x [.answer i (.obj g), .run x.gs.length clk]).dead = true := by
  refine answered_ends X P c hd hq (.inr ⟨rfl, hv, .inr ⟨?_, he⟩⟩) clk
  rw [hg]
  unfold RSASig.fromStr
  rw [hj]

/-! ### C152: clients -/

section
variable (c : CryptoConfig L)

/-- All objects of an update. -/
def ClientUpdate.objs (u : ClientUpdate) : List GossipObj := u.revs ++ u.sths ++ u.pomACCs ++ u.pomCONs

theorem handleRevs_panic (P : L.Panics) (l : List GossipObj) (m : GoMap Str BitSet) (h : (handleRevs X c true l m).1 = .panicked) :
    ∃ g ∈ l, Fatal c g ∨ (g.verify c = .ok ∧ FatalSRH X c g) := by
  induction l generalizing m with
  | nil => cases h
  | cons g t ih =>
    simp only [handleRevs, check, if_true] at h
    cases hv : g.verify c with
    | panic => exact ⟨g, List.mem_cons_self, .inl ((verify_panic_iff P c g).1 hv)⟩
    | err e => rw [hv] at h; cases h
    | ok =>
      rw [hv] at h
      simp only at h
      cases hs : verifySRH X c m (getSRHandDCRV X g).1 (getSRHandDCRV X g).2 g.payload.p0 g.period with
      | panic => exact ⟨g, List.mem_cons_self, .inr ⟨hv, (srh_panic_iff P X c _ g _ _ _).1 hs⟩⟩
      | err e => rw [hs] at h; cases h
      | ok =>
        rw [hs] at h
        obtain ⟨g', h1, h2⟩ := ih _ h
        exact ⟨g', List.mem_cons_of_mem _ h1, h2⟩

theorem handleSTHs_panic (P : L.Panics) (l : List GossipObj) (m : GoMap Str Str) (h : (handleSTHs X c true l m).1 = .panicked) :
    ∃ g ∈ l, Fatal c g := by
  induction l generalizing m with
  | nil => cases h
  | cons g t ih =>
    simp only [handleSTHs, check, if_true] at h
    cases hv : g.verify c with
    | panic => exact ⟨g, List.mem_cons_self, (verify_panic_iff P c g).1 hv⟩
    | err e => rw [hv] at h; cases h
    | ok =>
      rw [hv] at h
      simp only at h
      cases ht : treeInfo X g with
      | none => rw [ht] at h; cases h
      | some d =>
        rw [ht] at h
        obtain ⟨g', h1, h2⟩ := ih _ h
        exact ⟨g', List.mem_cons_of_mem _ h1, h2⟩

theorem handlePOMs_panic (P : L.Panics) (l : List GossipObj) (m : GoMap Str GossipObj) (h : (handlePOMs c true l m).1 = .panicked) :
    ∃ g ∈ l, Fatal c g := by
  induction l generalizing m with
  | nil => cases h
  | cons g t ih =>
    simp only [handlePOMs, check, if_true] at h
    cases hv : g.verify c with
    | panic => exact ⟨g, List.mem_cons_self, (verify_panic_iff P c g).1 hv⟩
    | err e => rw [hv] at h; cases h
    | ok =>
      rw [hv] at h
      obtain ⟨g', h1, h2⟩ := ih _ h
      exact ⟨g', List.mem_cons_of_mem _ h1, h2⟩

/-- C152, the part that holds for updates: an update ends a client only if it has an object that is fatal, or a revocation that verifies
with a fatal SRH. -/
theorem C152_updates_partial (P : L.Panics) (u : ClientUpdate) (s : ClientState) (h : (handleUpdate X c true u s).1 = .panicked) :
    (∃ g ∈ u.objs, Fatal c g) ∨ ∃ g ∈ u.revs, g.verify c = .ok ∧ FatalSRH X c g := by
  have hrev := handleRevs_panic X c P u.revs s.crvDB
  have hsth := handleSTHs_panic X c P u.sths s.sthDB
  have hpom := handlePOMs_panic c P (u.pomACCs ++ u.pomCONs) s.pomDB
  simp only [ClientUpdate.objs, List.mem_append]
  unfold handleUpdate at h
  split at h
  · cases h
  · split at h
    · simp only at h
      split at h
      · cases h
      · split at h
        · split at h
          · cases h
          · split at h
            · cases h
            · rename_i r m _ he
              rw [he] at hpom
              obtain ⟨g, h1, h2⟩ := hpom h
              rcases List.mem_append.1 h1 with h1 | h1
              · exact .inl ⟨g, .inl (.inr h1), h2⟩
              · exact .inl ⟨g, .inr h1, h2⟩
        · rename_i r m _ he
          rw [he] at hsth
          obtain ⟨g, h1, h2⟩ := hsth h
          exact .inl ⟨g, .inl (.inl (.inr h1)), h2⟩
    · rename_i r m _ he
      rw [he] at hrev
      obtain ⟨g, h1, h2⟩ := hrev h
      rcases h2 with h2 | h2
      · exact .inl ⟨g, .inl (.inl (.inl h1)), h2⟩
      · exact .inr ⟨g, h1, h2⟩

/-- C152, the part that holds for certificates: exactly two kinds of certificates end the client: with an entry that is fatal, of a
signer it knows no proof against; and with a good entry, of a CA of which it knows no revocations. -/
theorem C152_certificates_partial (P : L.Panics) (s : ClientState) (cert : Cert) : verifyCTngExt X c s cert = .panic ↔
    (∃ e ∈ (cert.parseExt X).loggers, s.pomDB.get e.sth.signer = none ∧ Fatal c e.sth) ∨
    ((∃ e ∈ (cert.parseExt X).loggers, GoodEntry X c s cert e) ∧ s.crvDB.get cert.issuerCN = none) := by
  have hnp : ∀ e : LoggerInfo, ¬ NoPanic c s e ↔ s.pomDB.get e.sth.signer = none ∧ Fatal c e.sth := by
    intro e
    rw [← verify_panic_iff P]
    unfold NoPanic
    constructor
    · intro h
      refine ⟨Classical.byContradiction fun h1 => h fun h2 => absurd h2 h1, Classical.byContradiction fun h1 => h fun _ => h1⟩
    · rintro ⟨h1, h2⟩ h
      exact h h1 h2
  by_cases hb : ∃ e ∈ (cert.parseExt X).loggers, s.pomDB.get e.sth.signer = none ∧ Fatal c e.sth
  · simp only [hb, true_or, iff_true]
    obtain ⟨e, he, h1, h2⟩ := hb
    exact C51_violated_bad_entry_panics X c s cert ⟨e, he, h1, (verify_panic_iff P c _).2 h2⟩
  · simp only [hb, false_or]
    constructor
    · intro h
      rw [verifyExt_eq] at h
      cases hcount : countFaulty X c s cert (cert.parseExt X).loggers with
      | none =>
        obtain ⟨e, he, hn⟩ := (count_none X c s cert _).1 hcount
        exact absurd ⟨e, he, (hnp e).1 hn⟩ hb
      | some n =>
        rw [hcount] at h
        simp only at h
        split at h
        · cases h
        · rename_i hne
          refine ⟨((count_le X c s cert _ n hcount).2.1 hne), ?_⟩
          cases hv : s.crvDB.get cert.issuerCN with
          | none => rfl
          | some v => rw [hv] at h; simp only at h; split at h <;> cases h
    · rintro ⟨hg, hv⟩
      exact C51_violated_no_vector X c s cert hv hg

/-- C152 is false: there is one object, made without any key, such that every certificate with an entry for it ends every client that
checks the certificate (and knows no proof against the signer the entry names), so every server can end the clients that connect to it;
and every update with it ends every client that is given the update first. -/
theorem C152_violated_one_object (P : L.Panics) (J : L.JsonLaws) (id : Str) (hid : Safe id) : ∃ g : GossipObj,
    ∀ (c : CryptoConfig L), c.signScheme = go!"rsa" → c.signPublicMap.get id = none →
      (∀ (s : ClientState) (cert : Cert), s.pomDB.get g.signer = none → (∃ e ∈ (cert.parseExt X).loggers, e.sth = g) →
        verifyCTngExt X c s cert = .panic) ∧
      ∀ u : ClientUpdate, u.revs.head? = some g → (handleUpdate X c true u initClient).1 = .panicked := by
  refine ⟨strayObj id, fun c hs hn => ⟨fun s cert hp ⟨e, he, h⟩ => ?_, fun u hu => ?_⟩⟩
  · refine (C152_certificates_partial X c P s cert).2 (.inl ⟨e, he, ?_, ?_⟩)
    · rw [h]; exact hp
    · rw [h]; exact stray_fatal J c hs id hid hn
  · cases hr : u.revs with
    | nil => rw [hr] at hu; cases hu
    | cons g t =>
      rw [hr] at hu
      simp only [List.head?_cons, Option.some.injEq] at hu
      subst hu
      have hf := (verify_panic_iff P c _).2 (stray_fatal J c hs id hid hn)
      simp [handleUpdate, initClient, hr, handleRevs, check, hf]

end

/-! ### Examples -/

namespace Ref

theorem panics : lib.Panics where
  rsa := by
    intro p d s
    cases p with
    | none => simp [lib]
    | some k => simp only [lib, reduceCtorEq, iff_false]; split <;> simp
  bls := by
    intro σ p m
    cases p with
    | none => simp [lib]
    | some k => simp only [lib]; split <;> simp
  agg := by
    intro t ps m
    cases t with
    | none => simp [lib]
    | some k =>
      simp only [lib, reduceCtorEq, iff_false]
      split
      · simp
      · split <;> simp

/-- C151: a monitor queries its logger L1 and is answered with an object in the name of L9, whom it does not know. -/
example : (monCRun xlib monConf .init [.query clk, .answer 0 (.obj (strayObj (go!"L9"))), .run 0 clk]).dead = true ∧
    monConf.crypto.signPublicMap.get (go!"L9") = none := by decide +kernel

/-- The same object posted by the gossiper, or in the name of L1, does no harm. -/
example : (monCRun xlib monConf .init [.query clk, .gossip (some (strayObj (go!"L9"))), .run 0 clk,
      .answer 0 (.obj (strayObj (go!"L1"))), .run 1 clk]).dead = false := by decide +kernel

/-- C151: C1 signs a revocation with an empty SRH. -/
example : (getSRHandDCRV xlib { GossipObj.zero with payload := ⟨go!"C1", [], []⟩ }).1 = [] ∧ lib.jsonStrMap [] = none ∧
    (monCRun xlib monConf .init [.query clk,
      .answer 1 (.obj { GossipObj.zero with type := .REV_INIT, payload := ⟨go!"C1", [], []⟩, sig := ⟨rsaStr (go!"C1") (go!"C1"), []⟩ }),
      .run 0 clk]).dead = true := by decide +kernel

/-- C152: an update, and a certificate, with the object. -/
example : (handleUpdate xlib m1 true { emptyUpdate with revs := [strayObj (go!"L9")] } initClient).1 = .panicked := by decide +kernel

end Ref
end CTng
