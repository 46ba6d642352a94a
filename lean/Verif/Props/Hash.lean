import Verif.Model.Hash
import Verif.Proofs.Itoa
import Verif.Props.Crypto
/- C141: the configured hash scheme. -/
set_option autoImplicit false

namespace CTng

/-- The algorithms of RFC 5246 section 7.4.1.4.1 with their numbers, names and functions. -/
inductive Algo (H : Hashes) : Nat → Str → (Str → Str) → Prop
  | md5 : Algo H 1 (go!"MD5") H.md5
  | sha1 : Algo H 2 (go!"SHA1") H.sha1
  | sha224 : Algo H 3 (go!"SHA224") H.sha224
  | sha256 : Algo H 4 (go!"SHA256") H.sha256
  | sha384 : Algo H 5 (go!"SHA384") H.sha384
  | sha512 : Algo H 6 (go!"SHA512") H.sha512

/-- C141: `generateHash` computes exactly the algorithms of the RFC and refuses every other number. -/
theorem C141_generate (H : Hashes) (n : Nat) (data d : Str) :
    generateHash H n data = some d ↔ ∃ name f, Algo H n name f ∧ d = f data := by
  constructor
  · intro h
    unfold generateHash at h
    split at h
    · rename_i e; subst e; cases h; exact ⟨_, _, .md5, rfl⟩
    split at h
    · rename_i e; subst e; cases h; exact ⟨_, _, .sha1, rfl⟩
    split at h
    · rename_i e; subst e; cases h; exact ⟨_, _, .sha224, rfl⟩
    split at h
    · rename_i e; subst e; cases h; exact ⟨_, _, .sha256, rfl⟩
    split at h
    · rename_i e; subst e; cases h; exact ⟨_, _, .sha384, rfl⟩
    split at h
    · rename_i e; subst e; cases h; exact ⟨_, _, .sha512, rfl⟩
    · cases h
  · rintro ⟨name, f, ha, rfl⟩
    cases ha <;> rfl

/-- C141: each algorithm is printed with its name, and no two numbers are printed alike. -/
theorem C141_names (H : Hashes) :
    (∀ n name f, Algo H n name f → hashName n = name) ∧ ∀ n m, hashName n = hashName m → n = m := by
  refine ⟨fun n name f ha => by cases ha <;> rfl, ?_⟩
  have small : ∀ n < 7, ∀ m < 7, hashName n = hashName m → n = m := by decide +kernel
  have big : ∀ n, 7 ≤ n → hashName n = go!"UNKNOWN(" ++ itoa n ++ go!")" := by
    intro n hn
    unfold hashName
    iterate 7 rw [if_neg (by omega)]
  have first : ∀ n < 7, (hashName n).head? ≠ some 85 := by decide +kernel
  have firstBig : ∀ n, 7 ≤ n → (hashName n).head? = some 85 := fun n hn => by rw [big n hn]; rfl
  intro n m h
  by_cases hn : n < 7
  · by_cases hm : m < 7
    · exact small n hn m hm h
    · exact absurd (h ▸ firstBig m (by omega)) (first n hn)
  · by_cases hm : m < 7
    · exact absurd (h ▸ firstBig n (by omega)) (first m hm)
    · rw [big n (by omega), big m (by omega)] at h
      exact itoa_inj (List.append_cancel_left (List.append_cancel_right h))

variable {L : Lib}

/-- C141, for `CryptoConfig.Hash`: with SHA256 and MD5 configured it computes that algorithm; nothing else gives a hash. Missing for the
full property: the other algorithms, and that signatures use it. -/
theorem C141_config_partial (H : Hashes) (h5 : L.md5 = H.md5) (h256 : L.sha256 = H.sha256) (c : CryptoConfig L) (msg d : Str) :
    c.hash msg = some d ↔ (c.hashScheme = 1 ∨ c.hashScheme = 4) ∧ ∃ name f, Algo H c.hashScheme name f ∧ d = f msg := by
  rw [← C141_generate]
  unfold CryptoConfig.hash generateHash
  by_cases h4 : c.hashScheme = 4
  · simp [h4, h256]
  · by_cases h1 : c.hashScheme = 1
    · simp [h1, h5]
    · simp [h4, h1]

/-- C141 fails: four algorithms that `generateHash` computes are refused when they are configured. -/
theorem C141_violated_refused (H : Hashes) (c : CryptoConfig L) (n : Nat) (hn : n = 2 ∨ n = 3 ∨ n = 5 ∨ n = 6) (msg : Str) :
    (∃ d, generateHash H n msg = some d) ∧ { c with hashScheme := n }.hash msg = none := by
  rcases hn with rfl | rfl | rfl | rfl <;> exact ⟨⟨_, rfl⟩, rfl⟩

/-- C141 fails: signatures do not use the configured scheme. Whatever it is, even one that `Hash` refuses, signing gives the same
signature, and a signature made under one scheme verifies under every other. -/
theorem C141_violated_signatures (c : CryptoConfig L) (n : Nat) (msg : Str) (sig : RSASig) :
    { c with hashScheme := n }.sign msg = c.sign msg ∧ { c with hashScheme := n }.verify msg sig = c.verify msg sig := ⟨rfl, rfl⟩

/-- C141: with "rsa" configured, what is signed and verified is the SHA256 hash. -/
theorem C141_signatures_partial (c : CryptoConfig L) (hs : c.signScheme = go!"rsa") (msg : Str) (sig : RSASig) :
    (c.sign msg).map RSASig.sig = L.rsaSign c.signSecretKey (L.sha256 msg) ∧
    (c.verify msg sig = .ok ↔ L.rsaVerify (c.signPublicMap.get sig.id) (L.sha256 msg) sig.sig = .ok) := by
  constructor
  · simp only [CryptoConfig.sign, hs, if_true, rsaSignMsg, Option.map_map]
    exact Option.map_id'
  · simp only [CryptoConfig.verify, hs, if_true, rsaVerifyMsg]
    cases L.rsaVerify (c.signPublicMap.get sig.id) (L.sha256 msg) sig.sig <;> simp

namespace Ref

/-- C141: algorithm 5, a number that is no algorithm, and the configured SHA256 of G1. -/
example : Algo ⟨id, id, id, id, fun s => s ++ s, id⟩ 5 (go!"SHA384") (fun s => s ++ s) ∧
    generateHash ⟨id, id, id, id, fun s => s ++ s, id⟩ 5 [1] = some [1, 1] ∧ generateHash ⟨id, id, id, id, id, id⟩ 0 [1] = none ∧
    hashName 17 = go!"UNKNOWN(17)" ∧ (conf (go!"G1")).hash [1] = some (lib.sha256 [1]) ∧ (conf (go!"G1")).signScheme = go!"rsa" :=
  ⟨.sha384, rfl, rfl, by decide +kernel, rfl, rfl⟩

end Ref
end CTng
