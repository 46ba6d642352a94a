import Verif.Props.Honest
import Verif.Props.WireCodec
import Verif.Props.Wire
/- C57 with encoding/json as modelled in `Model/Wire.lean`, instead of its contract. -/
set_option autoImplicit false

namespace CTng
namespace Wire
open Json

/-- C57, the payload of a revocation: its JSON decodes to it. Missing: strings that are not ASCII, and what is made of it, which are the
following theorems. -/
theorem C57_payload_bytes_partial (r : Revocation) (hr : r.Plain) : unmarshal revZero dRev (render (revJson r)) = (r, true) := by
  rw [unmarshal_render _ _ _ (numOk_rev r), dRev_read r]
  have h1 : sanitize r.period = r.period := Utf8.of_ascii hr.period
  have h2 : sanitize r.srh = r.srh := Utf8.of_ascii hr.srh
  rw [h1, h2]

variable (L : Lib) {X : XLib} (hX : X.Laws) (wrap unwrap : Str → Str) (hw : ∀ s, unwrap (wrap s) = s)
  (pub : L.withJson.RsaPriv → L.withJson.RsaPub) (laws : L.withJson.RsaLaws pub) (c : CAConf L.withJson) (root : Cert)
  (cc : CryptoConfig L.withJson) (hr : Registered pub c cc) (sha : Str → Str) (signer rootPub : Str)
include hX hw laws hr

/-- C57, first period, for encoding/json itself: no contract of it is assumed, neither for signatures nor for payloads. Missing: as in
`C57_first_period_partial`. -/
theorem C57_first_period_bytes_partial (evs : List CAEvent) (hf : hasFinish evs = false) (t : Instant) (pos : List Nat) (s' : CAState)
    (h : caRun (X.withJson wrap unwrap) c root (initCA (X.withJson wrap unwrap) sha signer rootPub).2 (evs ++ [.finish t pos]) = some s')
    (crv : GoMap Str BitSet) (hn : crv.get c.signer = none) :
    ∃ g, s'.revStorage.get (caNextPeriod t) = some g ∧ g.verify cc = .ok ∧
      verifySRH (X.withJson wrap unwrap) cc crv (getSRHandDCRV (X.withJson wrap unwrap) g).1 (getSRHandDCRV (X.withJson wrap unwrap) g).2
        g.payload.p0 g.period = .ok ∧
      (getSRHandDCRV (X.withJson wrap unwrap) g).2 = s'.crv.current :=
  C57_first_period_partial _ (json_laws L) pub laws c root cc hr (xjson_laws hX wrap unwrap hw) sha signer rootPub evs hf t pos s' h crv hn

/-- C57, later periods without a new revocation, for encoding/json itself. -/
theorem C57_nothing_new_bytes_partial (evs between : List CAEvent) (t0 t : Instant) (pos0 pos : List Nat) (s0 s' : CAState)
    (h0 : caRun (X.withJson wrap unwrap) c root (initCA (X.withJson wrap unwrap) sha signer rootPub).2 (evs ++ [.finish t0 pos0]) = some s0)
    (h : caRun (X.withJson wrap unwrap) c root (initCA (X.withJson wrap unwrap) sha signer rootPub).2
      (evs ++ [.finish t0 pos0] ++ between ++ [.finish t pos]) = some s')
    (hno : ∀ j ∈ revokedIn false between, s0.crv.current.test j = true)
    (crv : GoMap Str BitSet) (hv : crv.get c.signer = some s0.crv.current) :
    ∃ g, s'.revStorage.get (caNextPeriod t) = some g ∧ g.verify cc = .ok ∧
      verifySRH (X.withJson wrap unwrap) cc crv (getSRHandDCRV (X.withJson wrap unwrap) g).1 (getSRHandDCRV (X.withJson wrap unwrap) g).2
        g.payload.p0 g.period = .ok :=
  C57_nothing_new_partial _ (json_laws L) pub laws c root cc hr (xjson_laws hX wrap unwrap hw) sha signer rootPub evs between t0 t pos0 pos s0 s'
    h0 h hno crv hv

omit hX hw laws hr

/-- C57: the payload of a revocation with a delta and a signature. -/
example : let r : Revocation := ⟨go!"05", [1, 255, 0], go!"{\"sig\":\"00ff\",\"id\":\"C1\"}"⟩
    unmarshal revZero dRev (render (revJson r)) = (r, true) := by decide +kernel

end Wire

namespace Ref
open Wire

def jx : XLib := xlib.withJson id id

/-- C1 with the JSON of the wire, and a monitor's keys. -/
def wca : CAConf lib.withJson := ⟨go!"C1", wcrypto (go!"C1"), 2, 0, 0⟩

theorem wca_registered : Registered (L := lib.withJson) rsaPub wca (wcrypto (go!"M1")) where
  can d := ⟨_, rfl⟩
  safe := by unfold Safe; decide
  ascii := by unfold Ascii; decide
  signer := by decide
  scheme := rfl
  key := rfl
  noEmpty := by decide +kernel

/-- C57: the hypotheses of the two theorems, and that the published revocation passes. -/
example : ∃ s', caRun jx wca caRoot (initCA jx lib.sha256 (go!"C1") (go!"rootkey")).2 ([.revoke 4] ++ [.finish at58 []]) = some s' ∧
    ∃ g, s'.revStorage.get (caNextPeriod at58) = some g ∧
      verifySRH jx (wcrypto (go!"M1")) .empty (getSRHandDCRV jx g).1 (getSRHandDCRV jx g).2 g.payload.p0 g.period = .ok := by
  have h : (caRun jx wca caRoot (initCA jx lib.sha256 (go!"C1") (go!"rootkey")).2 ([.revoke 4] ++ [.finish at58 []])).isSome = true := by
    decide +kernel
  obtain ⟨s', hs⟩ := Option.isSome_iff_exists.1 h
  obtain ⟨g, h1, _, h2, _⟩ := C57_first_period_bytes_partial lib xlaws id id (fun _ => rfl) rsaPub ⟨rsaLaws.1, rsaLaws.2, rsaLaws.3, rsaLaws.4⟩ wca caRoot (wcrypto (go!"M1"))
    wca_registered lib.sha256 (go!"C1") (go!"rootkey") [.revoke 4] rfl at58 [] s' hs .empty rfl
  exact ⟨s', hs, g, h1, h2⟩

end Ref
end CTng
