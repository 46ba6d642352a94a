import Verif.Model.Verify
/-
Contracts of the external libraries. A theorem that needs one takes it as a hypothesis; `Spec/RefLib.lean` shows that
all of them hold together for one concrete library.
-/
set_option autoImplicit false

namespace CTng

/-- A printable ASCII character other than the quote and the backslash. -/
def safeChar (c : UInt8) : Bool := 32 ≤ c && c < 127 && c ≠ 34 && c ≠ 92

/-- A string that stands for itself inside JSON quotes. -/
def Safe (s : Str) : Prop := ∀ c ∈ s, safeChar c = true

/-- encoding/json on the strings the project prints: a JSON text with these members decodes to these members. -/
structure Lib.JsonLaws (L : Lib) : Prop where
  /-- `{"<k1>":"<v1>","<k2>":"<v2>"}` into a `map[string]string` -/
  two : ∀ k1 v1 k2 v2, Safe k1 → Safe v1 → Safe k2 → Safe v2 → k1 ≠ k2 →
    ∃ m, L.jsonStrMap (go!"{\"" ++ k1 ++ go!"\":\"" ++ v1 ++ go!"\",\"" ++ k2 ++ go!"\":\"" ++ v2 ++ go!"\"}") = some m ∧
      m.get k1 = some v1 ∧ m.get k2 = some v2
  /-- `{"sign":"<v>", "ids":<marshalled list>}` into the threshold signature struct -/
  threshold : ∀ v ids, Safe v → (∀ i ∈ ids, Safe i) →
    L.jsonThreshold (go!"{\"sign\":\"" ++ v ++ go!"\", \"ids\":" ++ L.jsonStrList ids ++ go!"}") = some (v, ids)

/-- RSA PKCS #1 v1.5: `pub` gives the public key of a private key; a signature made with a key verifies under its public
key, and (the padding being deterministic and RSA a permutation) no other byte string does; a signature determines the
digest it was made for; verification under an absent key never succeeds. -/
structure Lib.RsaLaws (L : Lib) (pub : L.RsaPriv → L.RsaPub) : Prop where
  complete : ∀ k d s, L.rsaSign k d = some s → L.rsaVerify (some (pub k)) d s = .ok
  unique : ∀ k d s, L.rsaVerify (some (pub k)) d s = .ok → L.rsaSign k d = some s
  digest : ∀ k d d' s, L.rsaSign k d = some s → L.rsaSign k d' = some s → d = d'
  absent : ∀ d s, L.rsaVerify none d s ≠ .ok

/-- BLS: signatures verify, aggregation is a sum (so order does not matter), an aggregate of signatures on one message
verifies under the public keys of its signers, the pairing equation determines the signature (zero keys contribute
nothing to the sum), and the hex form round-trips. `aggregate` idealises: it excludes secret keys that sum to zero. -/
structure Lib.BlsLaws (L : Lib) (pub : L.BlsSec → L.BlsPub) : Prop where
  complete : ∀ k m, L.blsVerify (L.blsSign k m) (pub k) m = .ok
  aggregate : ∀ ks m, ks ≠ [] →
    L.blsFastAggVerify (some (L.blsAggregate (ks.map fun k => L.blsSign k m))) (ks.map pub) m = .ok
  unique : ∀ k m s, L.blsVerify s (pub k) m = .ok → s = L.blsSign k m
  agg_unique : ∀ (ks : List L.BlsSec) (n : Nat) m s, L.blsFastAggVerify (some s) (ks.map pub ++ List.replicate n L.blsZeroPub) m = .ok →
    s = L.blsAggregate (ks.map fun k => L.blsSign k m)
  agg_perm : ∀ s t, s.Perm t → L.blsAggregate s = L.blsAggregate t
  ver_perm : ∀ s p q m, p.Perm q → L.blsFastAggVerify s p m = L.blsFastAggVerify s q m
  hex : ∀ s, L.blsDeHex (L.blsSerHex s) = some s
  hex_safe : ∀ s, Safe (L.blsSerHex s)

end CTng
