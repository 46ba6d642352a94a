import Verif.Model.ClientFetch
import Verif.Props.ClientExamples
import Verif.Props.Wire
/-
C112: revoked certificates stay revoked in the hands of their holders. C113: fetching fails closed.
-/
set_option autoImplicit false

namespace CTng
open Client

section
variable {L : Lib} (X : XLib) (c : CryptoConfig L)

/-! ### C112 -/

/-- The certificate with another revocation id in its extension, everything else as it was. -/
def Cert.withRID (cert : Cert) (r : Nat) : Cert :=
  { cert with extensions := [(oidCTng, X.encExt ⟨r, (cert.parseExt X).loggers⟩)] }

theorem parseExt_withRID (hX : X.Laws) (cert : Cert) (r : Nat) (hr : r < 2 ^ 63) (hp : (cert.parseExt X).Plain) :
    (cert.withRID X r).parseExt X = ⟨r, (cert.parseExt X).loggers⟩ := by
  unfold Cert.withRID Cert.parseExt
  simp only [List.foldl_cons, List.foldl_nil, if_true]
  exact hX.ext _ ⟨hr, hp.loggers⟩

/-- C112 is false: the client reads the revocation id from the certificate's extension, which neither the inclusion proof nor any
signature it checks covers. Whoever holds a certificate with a good entry, revoked or not, can write into it an id beyond the end
of the CA's vector, and every client accepts it, with the same subject, key, issuer and entries. -/
theorem C112_violated_unbound_id (hX : X.Laws) (s : ClientState) (cert : Cert) (v : BitSet) (hv : s.crvDB.get cert.issuerCN = some v)
    (hlen : v.len < 2 ^ 63) (hpl : (cert.parseExt X).Plain)
    (hp : ∀ e ∈ (cert.parseExt X).loggers, NoPanic c s e) (hg : ∃ e ∈ (cert.parseExt X).loggers, GoodEntry X c s cert e) :
    ∃ cert' : Cert, verifyCTngExt X c s cert' = .accept ∧ cert'.rawSubject = cert.rawSubject ∧ cert'.publicKey = cert.publicKey ∧
      cert'.issuerCN = cert.issuerCN ∧ cert'.signature = cert.signature ∧ (cert'.parseExt X).loggers = (cert.parseExt X).loggers ∧
      cert'.parseTBS = cert.parseTBS := by
  have hx := parseExt_withRID X hX cert v.len hlen hpl
  refine ⟨cert.withRID X v.len, ?_, rfl, rfl, rfl, rfl, by rw [hx], rfl⟩
  refine (C51_certificate_iff_partial X c s (cert.withRID X v.len) v hv (by rw [hx]; exact hp)).1.2 ⟨?_, ?_⟩
  · rw [hx]
    obtain ⟨e, he, h⟩ := hg
    exact ⟨e, he, h.free, h.verifies, h.tree⟩
  · unfold Cert.rid
    rw [hx]
    simp [BitSet.test]

/-- C112, what holds: a certificate with the issuer name and the extension of one whose bit is set is not accepted, whatever else
was changed in it. Missing: changes of the extension. -/
theorem C112_same_extension_partial (s : ClientState) (cert cert' : Cert) (v : BitSet) (hv : s.crvDB.get cert.issuerCN = some v)
    (hr : v.test (cert.rid X) = true) (hi : cert'.issuerCN = cert.issuerCN) (he : cert'.extensions = cert.extensions) :
    verifyCTngExt X c s cert' ≠ .accept := by
  intro h
  obtain ⟨_, _, b, hb, ht⟩ := C51_accepted_partial X c s cert' h
  rw [hi, hv] at hb
  cases hb
  have : cert'.rid X = cert.rid X := by unfold Cert.rid Cert.parseExt; rw [he]
  rw [this, hr] at ht
  cases ht

/-! ### C113 -/

/-- C113 is false for certificates: without TLS the caller gets an empty certificate and no error, and a server without a
certificate crashes it. -/
theorem C113_violated_certificate : fetchCertificate .plain = .ok zeroCert ∧ fetchCertificate (.tls []) = .panic := ⟨rfl, rfl⟩

/-- C113, what holds for certificates: what is returned without an error is the first certificate the server presented, or the
empty certificate over a connection without TLS; and no client accepts the latter. Missing: the error. -/
theorem C113_certificate_partial (r : GetRes) (cert : Cert) (h : fetchCertificate r = .ok cert) :
    (∃ rest, r = .tls (some cert :: rest)) ∨ (r = .plain ∧ ∀ s : ClientState, verifyCTngExt X c s cert = .reject) := by
  cases r with
  | failed => cases h
  | plain =>
    right
    cases h
    exact ⟨rfl, fun s => rfl⟩
  | tls certs =>
    left
    cases certs with
    | nil => cases h
    | cons a rest =>
      cases a with
      | none => cases h
      | some x => cases h; exact ⟨rest, rfl⟩

open Wire Json in
/-- C113, for gossip: a list is returned only from a reply with status 200 whose whole body is one JSON text that fits; every other
reply is an error. -/
theorem C113_gossip (r : Reply) (l : List GossipObj) :
    fetchGossip r = some l ↔ ∃ t j, r = .status 200 t ∧ Doc t j ∧ dList .zero dGossip [] j = (l, true) := by
  constructor
  · intro h
    cases r with
    | closed => cases h
    | status code t =>
      unfold fetchGossip fetchReply at h
      by_cases hc : code = 200
      · subst hc
        simp only [if_true] at h
        split at h
        · rename_i ht
          obtain ⟨j, h1, h2⟩ := unmarshal_doc.1 (Prod.ext (Option.some.inj h) ht : unmarshal [] (dList .zero dGossip) t = (l, true))
          exact ⟨t, j, rfl, h1, h2⟩
        · cases h
      · simp only [if_neg hc] at h; cases h
  · rintro ⟨t, j, rfl, hp, hd⟩
    have e : unmarshal [] (dList .zero dGossip) t = (l, true) := unmarshal_doc.2 ⟨j, hp, hd⟩
    simp only [fetchGossip, fetchReply, if_true, e]

end

namespace Ref
open Wire

/-- C112: certificate 2 is revoked and rejected; with another id in the extension it is accepted; with another key it is not. -/
example : ((logRound at34).bind fun x => (revRound at34).map fun r =>
    let z := handleUpdate xlib m1 true (update35 x.1 r) initClient
    (finals x.1 x.2).map fun f => (f.rid xlib, verifyCTngExt xlib m1 z.2 f, verifyCTngExt xlib m1 z.2 (f.withRID xlib 7),
      verifyCTngExt xlib m1 z.2 { f with publicKey := go!"mallory" })) =
    some [(1, .accept, .accept, .accept), (2, .reject, .accept, .reject)] := by decide +kernel

/-- The hypotheses of the attack hold of it. -/
example : ((logRound at34).bind fun x => (revRound at34).map fun r =>
    let z := handleUpdate xlib m1 true (update35 x.1 r) initClient
    (finals x.1 x.2).map fun f => ((z.2.crvDB.get f.issuerCN).map fun v => decide (v.len < 2 ^ 63),
      (f.parseExt xlib).loggers.map fun e => (entryFaulty xlib m1 z.2 f e))) =
    some [(some true, [some false]), (some true, [some false])] := by decide +kernel

/-- C113 -/
example : fetchCertificate (.tls [some caRoot, none]) = .ok caRoot ∧ fetchCertificate .failed = .err := ⟨rfl, rfl⟩

example : fetchGossip (.status 200 (go!"[{\"period\":\"5\"}]")) = some [{ GossipObj.zero with period := go!"5" }] ∧
    fetchGossip (.status 404 (go!"[]")) = none ∧ fetchGossip (.status 200 (go!"[{\"period\":5}]")) = none := by decide +kernel

end Ref
end CTng
