import Verif.Model.Crypto
/- Model of crypto/crypto_IO.go, the key map serialization of crypto/types.go and the key generation of crypto/bls.go. -/
set_option autoImplicit false

namespace CTng

/-- The library functions used for storing and generating keys. Nothing is assumed about them here. -/
structure KeyLib (L : Lib) where
  /-- `rsa.PrivateKey{}` -/
  rsaZero : L.RsaPriv
  /-- `bls.SecretKey{}` -/
  blsZeroSec : L.BlsSec
  /-- bls.PublicKey.Serialize / Deserialize (`none`: error) -/
  pubSer : L.BlsPub → Str
  pubDe : Str → Option L.BlsPub
  /-- bls.SecretKey.Serialize / Deserialize (`none`: error). A panic is not provided for: that the empty string, the secret of
  every role but the gossiper in a generated deployment, is refused with an error is taken from the library. -/
  secSer : L.BlsSec → Str
  secDe : Str → Option L.BlsSec
  /-- rsa.PrivateKey.PublicKey and bls.SecretKey.GetPublicKey -/
  rsaPub : L.RsaPriv → L.RsaPub
  blsPub : L.BlsSec → L.BlsPub
  /-- the keys returned by successive calls of NewRSAPrivateKey and SecretKey.SetByCSPRNG -/
  rsaRand : Nat → L.RsaPriv
  blsRand : Nat → L.BlsSec
  /-- `SecretKey.Set(mainSecrets, id)` -/
  blsShare : List L.BlsSec → Str → L.BlsSec
  /-- whether `CTngID.BlsID` (crypto/types.go:24-32) accepts the id; otherwise it panics -/
  blsIdOk : Str → Bool

variable {L : Lib}

/-- crypto/types.go:283-295 `StoredCryptoConfig` -/
structure StoredConfig (L : Lib) where
  threshold : Int
  n : Int
  hashScheme : Nat
  signScheme : Str
  thresholdScheme : Str
  selfID : Str
  signPublicMap : GoMap Str L.RsaPub
  signSecretKey : L.RsaPriv
  thresholdPublicMap : GoMap Str Str
  thresholdSecretKey : Str

/-- A map built by assigning the pairs one after the other. -/
def GoMap.assignAll {K V : Type} [DecidableEq K] (m : GoMap K V) (l : List (K × V)) : GoMap K V :=
  l.foldl (fun m e => m.set e.1 e.2) m

/-- crypto/types.go:132-138 `BlsPublicMap.Serialize` -/
def serializePubs (K : KeyLib L) (m : GoMap Str L.BlsPub) : GoMap Str Str :=
  GoMap.empty.assignAll (m.entries.map fun e => (e.1, K.pubSer e.2))

/-- crypto/types.go:142-153 `BlsPublicMap.Deserialize`: stops at the first key that does not decode, keeping what was
assigned before; the flag tells whether the error is nil. (Go takes the keys in any order, which matters for what is kept before
an error only; here the order of the entries.) -/
def deserializePubs (K : KeyLib L) (m : GoMap Str L.BlsPub) : List (Str × Str) → GoMap Str L.BlsPub × Bool
  | [] => (m, true)
  | e :: t =>
    match K.pubDe e.2 with
    | none => (m, false)
    | some p => deserializePubs K (m.set e.1 p) t

/-- crypto/crypto_IO.go:116-131 `NewStoredCryptoConfig` -/
def newStored (K : KeyLib L) (c : CryptoConfig L) : StoredConfig L where
  threshold := c.threshold
  n := c.n
  hashScheme := c.hashScheme
  signScheme := c.signScheme
  thresholdScheme := c.thresholdScheme
  selfID := c.selfID
  signPublicMap := c.signPublicMap
  signSecretKey := c.signSecretKey
  thresholdPublicMap := serializePubs K c.thresholdPublicMap
  thresholdSecretKey := K.secSer c.thresholdSecretKey

/-- crypto/crypto_IO.go:135-157 `NewCryptoConfig`: the configuration is returned even with an error (the flag). A secret that
does not decode leaves the zero secret. -/
def newCryptoConfig (K : KeyLib L) (s : StoredConfig L) : CryptoConfig L × Bool :=
  let (pubs, ok) := deserializePubs K .empty s.thresholdPublicMap.entries
  let c (sec : L.BlsSec) : CryptoConfig L :=
    { threshold := s.threshold, n := s.n, hashScheme := s.hashScheme, signScheme := s.signScheme,
      thresholdScheme := s.thresholdScheme, selfID := s.selfID, signPublicMap := s.signPublicMap,
      signSecretKey := s.signSecretKey, thresholdPublicMap := pubs, thresholdSecretKey := sec }
  if ok then
    match K.secDe s.thresholdSecretKey with
    | none => (c K.blsZeroSec, false)
    | some sec => (c sec, true)
  else (c K.blsZeroSec, false)

/-- crypto/crypto_IO.go:159-176 `NewVerifyOnlyCryptoConfig` -/
def newVerifyOnly (K : KeyLib L) (s : StoredConfig L) : CryptoConfig L × Bool :=
  let (pubs, ok) := deserializePubs K .empty s.thresholdPublicMap.entries
  ({ threshold := s.threshold, n := s.n, hashScheme := s.hashScheme, signScheme := s.signScheme,
     thresholdScheme := s.thresholdScheme, selfID := s.selfID, signPublicMap := s.signPublicMap,
     signSecretKey := K.rsaZero, thresholdPublicMap := pubs, thresholdSecretKey := K.blsZeroSec }, ok)

/-- crypto/crypto_IO.go:180-194 `NewBasicCryptoConfig` (never fails) -/
def newBasic (K : KeyLib L) (s : StoredConfig L) : CryptoConfig L :=
  { threshold := 0, n := 0, hashScheme := s.hashScheme, signScheme := s.signScheme, thresholdScheme := [],
    selfID := s.selfID, signPublicMap := s.signPublicMap, signSecretKey := s.signSecretKey, thresholdPublicMap := .empty,
    thresholdSecretKey := K.blsZeroSec }

/-- The JSON form of a stored configuration: `json.MarshalIndent` (util/IO.go:49) and what `json.Unmarshal` leaves in a
fresh `StoredCryptoConfig` (its error is ignored, crypto/crypto_IO.go:84). -/
structure ConfJson (L : Lib) where
  enc : StoredConfig L → Str
  dec : Str → StoredConfig L

/-- crypto/crypto_IO.go:66-78 `SaveCryptoFiles`, one file. (Writing is assumed to succeed.) -/
def saveCrypto (J : ConfJson L) (K : KeyLib L) (c : CryptoConfig L) : Str := J.enc (newStored K c)

/-- crypto/crypto_IO.go:81-90 `ReadCryptoConfig` of an existing file. -/
def readCrypto (J : ConfJson L) (K : KeyLib L) (file : Str) : CryptoConfig L × Bool := newCryptoConfig K (J.dec file)

/-- crypto/crypto_IO.go:92-101 `ReadVerifyOnlyCryptoConfig` of an existing file. -/
def readVerifyOnly (J : ConfJson L) (K : KeyLib L) (file : Str) : CryptoConfig L × Bool := newVerifyOnly K (J.dec file)

/-- crypto/crypto_IO.go:104-113 `ReadBasicCryptoConfig` of an existing file. -/
def readBasic (J : ConfJson L) (K : KeyLib L) (file : Str) : CryptoConfig L := newBasic K (J.dec file)

/-! ### Key generation -/

/-- Result of `GenerateThresholdKeypairs`. -/
inductive KeyGen (L : Lib) where
  | err
  | panic
  | ok (pubs : GoMap Str L.BlsPub) (privs : GoMap Str L.BlsSec)

/-- The secret of entity `e` at position `i` (crypto/bls.go:43-57). At positions from `threshold` on, all `mainSecrets` have
been drawn. -/
def blsSecretAt (K : KeyLib L) (threshold i : Nat) (e : Str) : L.BlsSec :=
  if i < threshold then K.blsRand i else K.blsShare ((List.range threshold).map K.blsRand) e

/-- crypto/bls.go:30-63 `GenerateThresholdKeypairs` (the list of BLS ids, which no caller uses, is omitted) -/
def generateThresholdKeypairs (K : KeyLib L) (entities : List Str) (threshold : Nat) : KeyGen L :=
  if threshold < 2 then .err
  else if entities.all K.blsIdOk then
    let secs := entities.zipIdx.map fun e => (e.1, blsSecretAt K threshold e.2 e.1)
    .ok (GoMap.empty.assignAll (secs.map fun e => (e.1, K.blsPub e.2))) (GoMap.empty.assignAll secs)
  else .panic

/-- crypto/crypto_IO.go:19-62 `GenerateEntityCryptoConfigs` and Gen/Gen.go:244-260 `RSA_gen`: one fresh key per list
position, assigned to both maps. -/
def rsaGen (K : KeyLib L) (entities : List Str) : GoMap Str L.RsaPub × GoMap Str L.RsaPriv :=
  let keys := entities.zipIdx.map fun e => (e.1, K.rsaRand e.2)
  (GoMap.empty.assignAll (keys.map fun e => (e.1, K.rsaPub e.2)), GoMap.empty.assignAll keys)

/-- crypto/crypto_IO.go:19-62 `GenerateEntityCryptoConfigs`; `none` is the panic on a failed key generation. -/
def generateEntityConfigs (K : KeyLib L) (entities : List Str) (threshold : Nat) : Option (List (CryptoConfig L)) :=
  match generateThresholdKeypairs K entities threshold with
  | .ok pubs privs =>
    let (rsaPubs, rsaPrivs) := rsaGen K entities
    some (entities.map fun e =>
      { threshold := threshold, n := entities.length, hashScheme := 4, signScheme := go!"rsa", thresholdScheme := go!"bls",
        selfID := e, signPublicMap := rsaPubs, signSecretKey := (rsaPrivs.get e).getD K.rsaZero,
        thresholdPublicMap := pubs, thresholdSecretKey := (privs.get e).getD K.blsZeroSec })
  | _ => none

end CTng
