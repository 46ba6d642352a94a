import Verif.Model.Crypto
/- Model of definition/Verify.go. -/
set_option autoImplicit false

namespace CTng
variable {L : Lib}

/-- definition/Verify.go:22-39 `Verify_CON`. Both verifications are always evaluated. -/
def verifyCON (g : GossipObj) (c : CryptoConfig L) : VRes :=
  match RSASig.fromStr L g.sig.s0, RSASig.fromStr L g.sig.s1 with
  | some r1, some r2 =>
    match c.verify g.payload.p1 r1, c.verify g.payload.p2 r2 with
    | .panic, _ => .panic
    | _, .panic => .panic
    | .ok, .ok => .ok
    | _, _ => .err .conMismatch
  | _, _ => .err .conMismatch

/-- definition/Verify.go:42-53 `Verify_PayloadFrag` -/
def verifyPayloadFrag (g : GossipObj) (c : CryptoConfig L) : VRes :=
  if g.sig.s0 ≠ [] ∧ g.payload.p0 ≠ [] then
    match c.fragmentVerify g.payload.cat (SigFragment.fromStr L g.sig.s0).1 with
    | .ok => .ok
    | .panic => .panic
    | .err _ => .err .noSigMatch
  else .err .mislabel

/-- definition/Verify.go:56-67 `Verify_PayloadThreshold` -/
def verifyPayloadThreshold (g : GossipObj) (c : CryptoConfig L) : VRes :=
  if g.sig.s0 ≠ [] ∧ g.payload.p0 ≠ [] then
    match c.thresholdVerify g.payload.cat (ThresholdSig.fromStr L g.sig.s0).1 with
    | .ok => .ok
    | .panic => .panic
    | .err _ => .err .noSigMatch
  else .err .mislabel

/-- definition/Verify.go:70-81 `Verify_RSAPayload` -/
def verifyRSAPayload (g : GossipObj) (c : CryptoConfig L) : VRes :=
  if g.sig.s0 ≠ [] ∧ g.payload.p0 ≠ [] then
    match RSASig.fromStr L g.sig.s0 with
    | none => .err .noSigMatch
    | some r => c.verify g.payload.cat r
  else .err .mislabel

/-- definition/Verify.go:87-114 `Gossip_object.Verify` -/
def GossipObj.verify (g : GossipObj) (c : CryptoConfig L) : VRes :=
  match g.type with
  | .STH_INIT => verifyRSAPayload g c
  | .REV_INIT => verifyRSAPayload g c
  | .ACC_INIT => verifyRSAPayload g c
  | .CON_INIT => verifyCON g c
  | .STH_FRAG => verifyPayloadFrag g c
  | .REV_FRAG => verifyPayloadFrag g c
  | .ACC_FRAG => verifyPayloadFrag g c
  | .STH_FULL => verifyPayloadThreshold g c
  | .REV_FULL => verifyPayloadThreshold g c
  | .ACC_FULL => verifyPayloadThreshold g c
  | .other _ => .err .invalidType

end CTng
