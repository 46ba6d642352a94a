import Verif.Model.CryptoIO
/- Model of the identifiers of the BLS library made from the names of entities: crypto/types.go:13-39. -/
set_option autoImplicit false

namespace CTng

/-- The number written in a string of hexadecimal digits, the most significant digit first. -/
def hexNumber (h : Str) : Nat := h.foldl (fun n c => n * 16 + ((fromHexDigit c).getD 0).toNat) 0

/-- The part of the BLS library that deals with identifiers, which are residues modulo the order of the group. -/
structure BlsIds where
  /-- the order of the group -/
  order : Nat
  /-- bls.ID.SetHexString; `none` is an error -/
  setHex : Str → Option Nat
  /-- bls.ID.Serialize; `SerializeToHexStr` is its hexadecimal form -/
  serialize : Nat → Str

/-- What the library promises: the order of BLS12-381 has 255 bits. A string of up to 64 hexadecimal digits is read as a number,
which has to be below the order. Of longer strings and of the empty one nothing is said but that what is accepted is the number
written and below the order. An identifier is serialized to 32 bytes. -/
structure BlsIds.Laws (B : BlsIds) : Prop where
  low : 256 ^ 31 ≤ B.order
  high : B.order ≤ 256 ^ 32
  value : ∀ h n, B.setHex h = some n → n = hexNumber h ∧ n < B.order
  reads : ∀ h : Str, h ≠ [] → h.length ≤ 64 → (∀ c ∈ h, (fromHexDigit c).isSome = true) → hexNumber h < B.order →
    (B.setHex h).isSome = true
  size : ∀ n, (B.serialize n).length = 32

/-- crypto/types.go:24-32 `CTngID.BlsID`: `none` is the panic -/
def blsIDOf (B : BlsIds) (id : Str) : Option Nat := B.setHex (hexEncode id)

/-- crypto/types.go:35-38 `CTngIDfromBlsID`: `none` is the error of the decoding, with which an id that is not to be used is
returned -/
def ctngIDOf (B : BlsIds) (n : Nat) : Option Str := hexDecode (hexEncode (B.serialize n))

/-- crypto/bls.go:45, 55: the key library uses the name of an entity by way of its identifier only -/
structure KeyLib.ByIds {L : Lib} (K : KeyLib L) (B : BlsIds) : Prop where
  ok : ∀ id, K.blsIdOk id = (blsIDOf B id).isSome
  share : ∀ ms a b, blsIDOf B a = blsIDOf B b → K.blsShare ms a = K.blsShare ms b

end CTng
