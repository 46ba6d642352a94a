import Verif.Proofs.WireLaws
import Verif.Props.Crypto
import Verif.Props.CA
/-
C10, C60 and C97 with encoding/json and the OCTET STRING as modelled in `Model/Wire.lean`, instead of their contracts.
-/
set_option autoImplicit false

namespace CTng
namespace Wire
open Json

/-- C10, for encoding/json itself: RSA signatures. -/
theorem C10_rsa_bytes (L : Lib) (r : RSASig) (hid : Safe r.id) : RSASig.fromStr L.withJson r.toStr = some r :=
  C10_rsa_roundtrip (json_laws L) r hid

/-- C10, for encoding/json itself: fragments. -/
theorem C10_fragment_bytes (L : Lib) (pub : L.withJson.BlsSec → L.withJson.BlsPub) (B : L.withJson.BlsLaws pub)
    (σ : L.withJson.BlsSig) (id : Str) (hid : Safe id) :
    ∃ str, SigFragment.toStr L.withJson ⟨some σ, id⟩ = some str ∧ SigFragment.fromStr L.withJson str = (⟨some σ, id⟩, true) :=
  C10_fragment_roundtrip (json_laws L) pub B σ id hid

/-- C10, for encoding/json itself: threshold signatures. -/
theorem C10_threshold_bytes (L : Lib) (pub : L.withJson.BlsSec → L.withJson.BlsPub) (B : L.withJson.BlsLaws pub)
    (σ : L.withJson.BlsSig) (ids : List Str) (hids : ∀ i ∈ ids, Safe i) :
    ∃ str, ThresholdSig.toStr L.withJson ⟨ids, some σ⟩ = some str ∧ ThresholdSig.fromStr L.withJson str = (⟨ids, some σ⟩, true) :=
  C10_threshold_roundtrip (json_laws L) pub B σ ids hids

/-- C60, the bytes of the extension: whatever the entries, the JSON in its OCTET STRING decodes to the extension. Missing:
extensions with strings that are not ASCII, and the updates, which are `C60_updates_partial`. -/
theorem C60_bytes_partial (e : CTngExt) (he : e.Plain) (hl : (render (extJson e)).length < 2 ^ 31) :
    (unmarshal CTngExt.zero dExt (unoctet (octet (render (extJson e))))).1 = e := by
  rw [unoctet_octet _ hl, unmarshal_render _ _ _ (numOk_ext e), dExt_read e he]

/-- C97, the payload of a tree head: its JSON decodes to it, without an error. Missing: strings that are
not ASCII, and the extraction, which is `C97_plain_partial`. -/
theorem C97_payload_bytes_partial (d : STHData) (hd : d.Plain) : unmarshal sthZero dSTH (render (sthJson d)) = (d, true) := by
  rw [unmarshal_render _ _ _ (numOk_sth d), dSTH_read d hd.treeSize]
  have h1 : sanitize d.signer = d.signer := Utf8.of_ascii hd.signer
  have h2 : sanitize d.timestamp = d.timestamp := Utf8.of_ascii hd.timestamp
  have h3 : sanitize d.period = d.period := Utf8.of_ascii hd.period
  have h4 : sanitize d.rootHash = d.rootHash := Utf8.of_ascii hd.rootHash
  rw [h1, h2, h3, h4]

/-! ### Examples -/

private def ascii? (s : Str) : Bool := s.all fun c => decide (c < 128)

private theorem ascii_of {s : Str} (h : ascii? s = true) : Ascii s := fun c hc => by simpa using List.all_eq_true.1 h c hc

/-- C10 -/
example : RSASig.fromStr Ref.lib.withJson (RSASig.mk [1, 2, 255] (go!"localhost:9100")).toStr = some ⟨[1, 2, 255], go!"localhost:9100"⟩ :=
  C10_rsa_bytes _ _ (by unfold Safe; decide)

/-- C97 -/
example : STHData.Plain ⟨go!"L1", go!"t", go!"5", go!"ab12", 70000⟩ :=
  ⟨ascii_of (by decide +kernel), ascii_of (by decide +kernel), ascii_of (by decide +kernel), ascii_of (by decide +kernel), by decide⟩

/-- C60: an extension with an entry whose JSON is longer than 127 bytes, where the length takes more than one byte. -/
example : let e : CTngExt := ⟨5, [⟨Ref.sth, ⟨some ⟨[[1, 2], [3]], 2⟩, [7], go!"C1", go!"L1"⟩⟩]⟩
    128 ≤ (render (extJson e)).length ∧ (render (extJson e)).length < 2 ^ 31 ∧
      (unmarshal CTngExt.zero dExt (unoctet (octet (render (extJson e))))).1 = e := by decide +kernel

end Wire
end CTng
