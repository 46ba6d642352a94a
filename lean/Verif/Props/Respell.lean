import Verif.Props.GossiperSeq
import Verif.Props.Crypto
/- C10, C19: a signature has more than one text. -/
set_option autoImplicit false

namespace CTng

/-! ### Specification -/

/-- A hexadecimal letter in upper case. -/
def upperHex (c : UInt8) : UInt8 := if 97 ≤ c ∧ c ≤ 102 then c - 32 else c

/-- The text of an RSA signature, with the hexadecimal letters in upper case. -/
def RSASig.upperText (r : RSASig) : Str :=
  go!"{\"sig\":\"" ++ (hexEncode r.sig).map upperHex ++ go!"\",\"id\":\"" ++ r.id ++ go!"\"}"

/-! ### Decoding -/

set_option maxRecDepth 10000 in
theorem upperHex_spec (c : UInt8) : isHexChar c = true → fromHexDigit (upperHex c) = fromHexDigit c ∧ safeChar (upperHex c) = true :=
  forall_uint8 (p := fun c => isHexChar c = true → fromHexDigit (upperHex c) = fromHexDigit c ∧ safeChar (upperHex c) = true)
    (by decide +kernel) c

theorem hexDecode_upper : ∀ s : Str, hexDecode ((hexEncode s).map upperHex) = some s
  | [] => rfl
  | b :: t => by
    obtain ⟨h1, h2, h3, h4, h5⟩ := hexDigit_spec b
    simp [hexEncode, hexDecode, (upperHex_spec _ h1).1, (upperHex_spec _ h2).1, h3, h4, h5, hexDecode_upper t]

theorem upper_safe (s : Str) : Safe ((hexEncode s).map upperHex) := by
  intro c hc
  obtain ⟨d, hd, rfl⟩ := List.mem_map.1 hc
  exact (upperHex_spec d (hexEncode_chars s d hd)).2

variable {L : Lib}

/-- C10, the other way round does not hold: a signature can be read from a text that is not its own. -/
theorem C10_second_text (J : L.JsonLaws) (r : RSASig) (hid : Safe r.id) :
    RSASig.fromStr L r.upperText = some r ∧ ((hexEncode r.sig).map upperHex ≠ hexEncode r.sig → r.upperText ≠ r.toStr) := by
  constructor
  · obtain ⟨m, h1, h2, h3⟩ := J.two (go!"sig") ((hexEncode r.sig).map upperHex) (go!"id") r.id (by unfold Safe; decide)
      (upper_safe r.sig) (by unfold Safe; decide) hid (by decide)
    refine fromStr_iff.2 ⟨m, ?_, ?_, ?_⟩
    · rw [← h1]; simp [RSASig.upperText]
    · rw [h2]; exact hexDecode_upper _
    · rw [h3]; rfl
  · intro hne he
    apply hne
    unfold RSASig.upperText RSASig.toStr at he
    simpa using he

/-- C19 fails even without touching the second signature slot: an honest STH_INIT or REV_INIT posted again with the letters of
its hexadecimal signature in upper case verifies, is taken for a second statement, and gets its signer blacklisted. -/
theorem C19_violated_respelled (J : L.JsonLaws) (cf : GConf L) (hT : 0 < cf.crypto.threshold) (s : GState) (hs : GReach cf s)
    (t : GType) (ht : t = .STH_INIT ∨ t = .REV_INIT) (o : GossipObj) (k : GossipID) (held : HeldAs s.storage k o t)
    (hnb : s.blacklist.has o.payload.p0 = false) (r : RSASig) (hid : Safe r.id) (hr : o.sig.s0 = r.toStr)
    (hne : (hexEncode r.sig).map upperHex ≠ hexEncode r.sig) (clk : Clock) (n : Int) :
    (gossipObjectHandler cf clk n s { o with sig := { o.sig with s0 := r.upperText } }).1.blacklist.has o.payload.p0 = true := by
  obtain ⟨ho1, ho2, ho3⟩ := (hs.storageInv cf).objs t k o (heldAs_iff.1 held)
  obtain ⟨e1, e2⟩ := C10_second_text J r hid
  have hv : ({ o with sig := { o.sig with s0 := r.upperText } } : GossipObj).verify cf.crypto = .ok := by
    have e : ∀ x : GossipObj, (x.type = .STH_INIT ∨ x.type = .REV_INIT) → x.verify cf.crypto = verifyRSAPayload x cf.crypto := by
      intro x hx; unfold GossipObj.verify; rcases hx with h | h <;> rw [h]
    rw [e _ (by simpa [ho2] using ht)] at ho3 ⊢
    have hrt := rsaSig_roundtrip J r hid
    have hne1 : r.toStr ≠ [] := by unfold RSASig.toStr; simp
    have hne2 : r.upperText ≠ [] := by unfold RSASig.upperText; simp
    unfold verifyRSAPayload at ho3 ⊢
    rw [hr, hrt] at ho3
    rw [e1]
    simpa [hne1, hne2] using ho3
  obtain ⟨c, _, _, _, _, h, _⟩ := C18_equivocation_detected cf hT s hs t ht o
    { o with sig := { o.sig with s0 := r.upperText } } k held ho2 (by rw [← ho1]; rfl) (by rw [← ho1]; rfl) rfl
    (by intro e; exact e2 hne ((congrArg Sig2.s0 e).trans hr)) hv hnb clk n
  exact h

/-- Non-vacuous: the signature of `Ref.sth` has letters. -/
example : ∃ (s : GState) (r : RSASig), GReach Ref.gconf s ∧ HeldAs s.storage Ref.sth.getID Ref.sth .STH_INIT ∧ s.blacklist.has Ref.sth.payload.p0 = false ∧
    Safe r.id ∧ Ref.sth.sig.s0 = r.toStr ∧ (hexEncode r.sig).map upperHex ≠ hexEncode r.sig :=
  ⟨grun Ref.gconf GState.init [(Ref.clk, .recv 10 Ref.sth)], (RSASig.fromStr Ref.lib Ref.sth.sig.s0).getD ⟨[], []⟩, ⟨_, rfl⟩,
    heldAs_iff.2 (by decide +kernel), by decide +kernel, by unfold Safe; decide +kernel, by decide +kernel, by decide +kernel⟩

end CTng
