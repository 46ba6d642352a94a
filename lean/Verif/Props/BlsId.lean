import Verif.Model.BlsId
import Verif.Props.Config
/- C159: the identifiers of the BLS library made from the names of entities. -/
set_option autoImplicit false

namespace CTng
open Gen

variable {L : Lib}

/-- Specification: the bytes of a string read as one number, the first byte the most significant. -/
def bigEndian : Str → Nat
  | [] => 0
  | b :: t => b.toNat * 256 ^ t.length + bigEndian t

theorem bigEndian_lt : ∀ s : Str, bigEndian s < 256 ^ s.length
  | [] => by simp [bigEndian]
  | b :: t => by
    have h := bigEndian_lt t
    have hb : b.toNat ≤ 255 := by have := b.toNat_lt; omega
    have := Nat.mul_le_mul_right (256 ^ t.length) hb
    rw [bigEndian, List.length_cons, Nat.pow_succ]
    omega

/-- Specification: a name that does not begin with a NUL byte. -/
def NoNul (s : Str) : Prop := s.head? ≠ some 0

theorem bigEndian_ge (b : UInt8) (t : Str) (hb : b ≠ 0) : 256 ^ t.length ≤ bigEndian (b :: t) := by
  have h1 : 1 ≤ b.toNat := by
    rcases Nat.eq_zero_or_pos b.toNat with h | h
    · exact absurd (UInt8.toNat_inj.1 h) hb
    · exact h
  have := Nat.mul_le_mul_right (256 ^ t.length) h1
  rw [bigEndian]
  omega

theorem bigEndian_inj_len : ∀ (a b : Str), a.length = b.length → bigEndian a = bigEndian b → a = b
  | [], [], _, _ => rfl
  | x :: s, y :: t, hl, h => by
    have hl' : s.length = t.length := by simpa using hl
    have h1 := bigEndian_lt s
    have h2 := bigEndian_lt t
    rw [bigEndian, bigEndian, ← hl'] at h
    rw [← hl'] at h2
    have hp : 0 < 256 ^ s.length := Nat.pow_pos (by decide)
    have e1 := congrArg (· / 256 ^ s.length) h
    have e2 := congrArg (· % 256 ^ s.length) h
    rw [Nat.mul_comm, Nat.mul_add_div hp, Nat.mul_comm y.toNat, Nat.mul_add_div hp, Nat.div_eq_of_lt h1, Nat.div_eq_of_lt h2] at e1
    rw [Nat.mul_comm, Nat.mul_add_mod, Nat.mul_comm y.toNat, Nat.mul_add_mod, Nat.mod_eq_of_lt h1, Nat.mod_eq_of_lt h2] at e2
    rw [UInt8.toNat_inj.1 (show x.toNat = y.toNat by omega), bigEndian_inj_len s t hl' e2]

theorem bigEndian_inj {a b : Str} (ha : NoNul a) (hb : NoNul b) (h : bigEndian a = bigEndian b) : a = b := by
  have key : ∀ s t : Str, NoNul t → bigEndian s = bigEndian t → ¬ s.length < t.length := by
    intro s t ht e hl
    cases t with
    | nil => simp at hl
    | cons y t =>
      have h1 := bigEndian_ge y t (fun h => ht (by simp [h]))
      have h2 := bigEndian_lt s
      have h3 : 256 ^ s.length ≤ 256 ^ t.length := Nat.pow_le_pow_right (by decide) (by simp at hl; omega)
      omega
  exact bigEndian_inj_len a b (by have := key a b hb h; have := key b a ha h.symm; omega) h

theorem hexNumber_from (n : Nat) : ∀ s : Str,
    (hexEncode s).foldl (fun n c => n * 16 + ((fromHexDigit c).getD 0).toNat) n = n * 256 ^ s.length + bigEndian s := by
  intro s
  induction s generalizing n with
  | nil => simp [hexEncode, bigEndian]
  | cons b t ih =>
    obtain ⟨_, _, h3, h4, h5⟩ := hexDigit_spec b
    rw [hexEncode, List.foldl_cons, List.foldl_cons, ih, h3, h4, bigEndian, List.length_cons, Nat.pow_succ]
    have e : b.toNat / 16 * 16 + b.toNat % 16 = b.toNat := by omega
    have e1 : (b / 16).toNat = b.toNat / 16 := by simp
    have e2 : (b % 16).toNat = b.toNat % 16 := by simp
    simp only [Option.getD_some, e1, e2]
    have : (n * 16 + b.toNat / 16) * 16 + b.toNat % 16 = n * 256 + b.toNat := by omega
    rw [this, Nat.add_mul, Nat.mul_assoc, Nat.mul_comm 256]
    omega

theorem hexNumber_encode (s : Str) : hexNumber (hexEncode s) = bigEndian s := by
  rw [hexNumber, hexNumber_from]; omega

theorem hexEncode_digits : ∀ (s : Str), ∀ c ∈ hexEncode s, (fromHexDigit c).isSome = true
  | [], _, h => by simp [hexEncode] at h
  | b :: t, c, h => by
    obtain ⟨_, _, h3, h4, _⟩ := hexDigit_spec b
    simp only [hexEncode, List.mem_cons] at h
    rcases h with rfl | rfl | h
    · simp [h3]
    · simp [h4]
    · exact hexEncode_digits t c h

section
variable {B : BlsIds} (hB : B.Laws)
include hB

/-- C159, for names that do not begin with a NUL byte: different names have different identifiers. -/
theorem C159_unique_partial (a b : Str) (ha : NoNul a) (hb : NoNul b) (n : Nat) (h : blsIDOf B a = some n)
    (h' : blsIDOf B b = some n) : a = b := by
  have h1 := (hB.value _ _ h).1
  have h2 := (hB.value _ _ h').1
  rw [hexNumber_encode] at h1 h2
  exact bigEndian_inj ha hb (h1.symm.trans h2)

/-- C159, for names of up to 31 bytes: there is an identifier. -/
theorem C159_accepted_partial (a : Str) (h0 : a ≠ []) (h : a.length ≤ 31) : ∃ n, blsIDOf B a = some n := by
  have hlt : hexNumber (hexEncode a) < B.order := by
    rw [hexNumber_encode]
    have h1 := bigEndian_lt a
    have h2 : 256 ^ a.length ≤ 256 ^ 31 := Nat.pow_le_pow_right (by decide) h
    have h3 := hB.low
    generalize (256 : Nat) ^ 31 = x at h2 h3
    omega
  have hne : hexEncode a ≠ [] := by
    intro e
    have := congrArg List.length e
    rw [hexEncode_length] at this
    cases a with
    | nil => exact h0 rfl
    | cons x t => simp at this
  exact Option.isSome_iff_exists.1 (hB.reads _ hne (by rw [hexEncode_length]; omega) (hexEncode_digits a) hlt)

/-- C159, exactly, for names of up to 32 bytes: there is an identifier if and only if the bytes of the name, read as one number,
give a number below the order of the group, and this number is the identifier. (With the curve the code uses the order begins with
the byte of the letter `s`, so a name of 32 bytes beginning with `a` to `r` has one, and one beginning with `t` to `z` has none.) -/
theorem C159_accepted_exactly_partial (a : Str) (h0 : a ≠ []) (h : a.length ≤ 32) (n : Nat) :
    blsIDOf B a = some n ↔ n = bigEndian a ∧ bigEndian a < B.order := by
  constructor
  · intro e
    obtain ⟨h1, h2⟩ := hB.value _ _ e
    rw [hexNumber_encode] at h1
    exact ⟨h1, h1 ▸ h2⟩
  · rintro ⟨rfl, hlt⟩
    have hne : hexEncode a ≠ [] := by
      intro e
      have := congrArg List.length e
      rw [hexEncode_length] at this
      cases a with
      | nil => exact h0 rfl
      | cons x t => simp at this
    obtain ⟨m, hm⟩ := Option.isSome_iff_exists.1 (hB.reads _ hne (by rw [hexEncode_length]; omega) (hexEncode_digits a)
      (by rw [hexNumber_encode]; exact hlt))
    have := (hB.value _ _ hm).1
    rw [hexNumber_encode] at this
    rw [blsIDOf, hm, this]

/-- C159 in full for the entities that get threshold keys when a deployment is generated: the key generation does not panic at the
name of any of the gossipers, and their identifiers differ. -/
theorem C159_generated (K : KeyLib L) (hK : K.ByIds B) :
    (∀ i, i < 1000 → K.blsIdOk (Role.gossiper.url i) = true) ∧
    ∀ i j, i < 1000 → j < 1000 → blsIDOf B (Role.gossiper.url i) = blsIDOf B (Role.gossiper.url j) → i = j := by
  have hs : ∀ i : Fin 1000, (Role.gossiper.url i.1).length ≤ 31 ∧ (Role.gossiper.url i.1).head? = some 108 := by decide +kernel
  have hu : ∀ i, i < 1000 → ∃ n, blsIDOf B (Role.gossiper.url i) = some n := fun i hi =>
    C159_accepted_partial hB _ (fun h => by have := (hs ⟨i, hi⟩).2; simp [h] at this) (hs ⟨i, hi⟩).1
  refine ⟨fun i hi => ?_, fun i j hi hj h => ?_⟩
  · obtain ⟨n, h⟩ := hu i hi
    rw [hK.ok, h]; rfl
  · obtain ⟨n, h1⟩ := hu i hi
    have e := C159_unique_partial hB _ _ (fun h => by have := (hs ⟨i, hi⟩).2; simp [h] at this)
      (fun h => by have := (hs ⟨j, hj⟩).2; simp [h] at this) n h1 (h ▸ h1)
    exact (url_inj rfl hi hj e).2

/-- C159 is false for names of more than 32 bytes: the key generation ends with a panic whenever one of the entities has such a
name, whatever the others are called; so does `BLS_gen_all`. -/
theorem C159_violated_long_name (K : KeyLib L) (hK : K.ByIds B) (es : List Str) (t : Nat) (ht : 2 ≤ t) (a : Str) (ha : a ∈ es)
    (hn : NoNul a) (hl : 33 ≤ a.length) :
    blsIDOf B a = none ∧ generateThresholdKeypairs K es t = .panic ∧ generateEntityConfigs K es t = none ∧
    (t = es.length → blsGenAll K es = none) := by
  have e : blsIDOf B a = none := by
    cases h : blsIDOf B a with
    | none => rfl
    | some n =>
      obtain ⟨h1, h2⟩ := hB.value _ _ h
      rw [hexNumber_encode] at h1
      cases a with
      | nil => simp at hl
      | cons x s =>
        have h3 := bigEndian_ge x s (fun h => hn (by simp [h]))
        have h4 : 256 ^ 32 ≤ 256 ^ s.length := Nat.pow_le_pow_right (by decide) (by simp at hl; omega)
        have h5 := hB.high
        generalize (256 : Nat) ^ 32 = y at h4 h5
        omega
  have hg : generateThresholdKeypairs K es t = .panic := by
    rw [generateThresholdKeypairs, if_neg (by omega), if_neg]
    intro h
    have := List.all_eq_true.1 h a ha
    rw [hK.ok, e] at this
    cases this
  exact ⟨e, hg, by rw [generateEntityConfigs, hg], fun ht => by rw [blsGenAll, ← ht, hg]⟩

/-- C159 is false for names that begin with NUL bytes: leaving out the NUL byte gives another name with the same identifier, and
where both get derived threshold keys they get the same. -/
theorem C159_violated_nul (K : KeyLib L) (hK : K.ByIds B) (a : Str) (h0 : a ≠ []) (hl : a.length ≤ 30) :
    (0 :: a) ≠ a ∧ blsIDOf B (0 :: a) = blsIDOf B a ∧
    ∀ t i j, t ≤ i → t ≤ j → blsSecretAt K t i (0 :: a) = blsSecretAt K t j a := by
  obtain ⟨n, h⟩ := C159_accepted_partial hB a h0 (by omega)
  obtain ⟨m, h'⟩ := C159_accepted_partial hB (0 :: a) (by simp) (by simp; omega)
  have e : blsIDOf B (0 :: a) = blsIDOf B a := by
    have h1 := (hB.value _ _ h).1
    have h2 := (hB.value _ _ h').1
    rw [hexNumber_encode] at h1 h2
    have e0 : bigEndian (0 :: a) = bigEndian a := by rw [bigEndian]; simp
    rw [h, h', h1, h2, e0]
  refine ⟨fun h => ?_, e, fun t i j hi hj => ?_⟩
  · have := congrArg List.length h
    simp at this
  · rw [blsSecretAt, blsSecretAt, if_neg (by omega), if_neg (by omega), hK.share _ _ _ e]

/-- C159 is false for `CTngIDfromBlsID`, "the reverse of CTngID.BlsID()": it gives back no name that is not 32 bytes long, so none
of the names of a generated deployment. -/
theorem C159_violated_reverse (a : Str) (hl : a.length ≠ 32) (n : Nat) :
    ctngIDOf B n ≠ some a := by
  intro h
  rw [ctngIDOf, hexDecode_encode] at h
  have := hB.size n
  rw [Option.some.inj h] at this
  exact hl this

end

/-! ### Concrete cases -/

namespace Ref

/-- Identifiers modulo the order of BLS12-381, serialized with the least significant byte first. -/
def blsIds : BlsIds where
  order := 0x73eda753299d7d483339d80809a1d80553bda402fffe5bfeffffffff00000001
  setHex h :=
    if h ≠ [] ∧ h.length ≤ 64 ∧ (h.all fun c => (fromHexDigit c).isSome) = true ∧
      hexNumber h < 0x73eda753299d7d483339d80809a1d80553bda402fffe5bfeffffffff00000001 then some (hexNumber h) else none
  serialize n := (List.range 32).map fun i => UInt8.ofNat (n / 256 ^ i)

theorem blsIdsLaws : blsIds.Laws where
  low := by decide +kernel
  high := by decide +kernel
  value h n e := by
    simp only [blsIds] at e ⊢
    split at e
    · rename_i c
      cases e
      exact ⟨rfl, c.2.2.2⟩
    · cases e
  reads h h0 hl hd hv := by
    simp only [blsIds] at hv ⊢
    rw [if_pos ⟨h0, hl, List.all_eq_true.2 hd, hv⟩]
    rfl
  size n := by simp [blsIds]

/-- Keys that depend on the identifiers. -/
def idKeys : KeyLib lib :=
  { keys with
    blsIdOk := fun id => (blsIDOf blsIds id).isSome
    blsShare := fun _ id => go!"share" ++ itoa ((blsIDOf blsIds id).getD 0) }

theorem idKeysBy : idKeys.ByIds blsIds where
  ok _ := rfl
  share _ _ _ h := by simp only [idKeys, h]; rfl

/-- C159: two gossipers of a generated deployment; and the names do not come back. -/
example : blsIDOf blsIds (Role.gossiper.url 0) ≠ blsIDOf blsIds (Role.gossiper.url 1) ∧
    (blsIDOf blsIds (Role.gossiper.url 1)).isSome = true ∧
    ctngIDOf blsIds ((blsIDOf blsIds (Role.gossiper.url 1)).getD 0) =
      some ((Role.gossiper.url 1).reverse ++ List.replicate 18 0) := by decide +kernel

example : idKeys.blsIdOk (Role.gossiper.url 999) = true := (C159_generated blsIdsLaws idKeys idKeysBy).1 999 (by omega)

/-- C159: two names of 32 bytes, one below and one above the order. -/
example : blsIDOf blsIds (go!"gossiper.of.the.example.org:9000") = some (bigEndian (go!"gossiper.of.the.example.org:9000")) ∧
    ∀ n, blsIDOf blsIds (go!"transparency.the.example.org:900") ≠ some n :=
  ⟨(C159_accepted_exactly_partial blsIdsLaws _ (by decide) (by decide) _).2 ⟨rfl, by decide +kernel⟩,
    fun n h => absurd ((C159_accepted_exactly_partial blsIdsLaws _ (by decide) (by decide) n).1 h).2 (by decide +kernel)⟩

/-- C159: a gossiper under the name of a machine. -/
example : generateEntityConfigs idKeys [go!"localhost:9000", go!"gossiper1.transparency.example.org:9000"] 2 = none ∧
    blsGenAll idKeys [go!"localhost:9000", go!"gossiper1.transparency.example.org:9000"] = none :=
  (C159_violated_long_name blsIdsLaws idKeys idKeysBy _ 2 (by decide) _ (List.mem_cons_of_mem _ (List.mem_singleton.2 rfl))
    (by unfold NoNul; decide) (by decide)).2.2.imp_right fun h => h rfl

/-- C159: a name with a NUL byte. -/
example : blsIDOf blsIds (0 :: go!"localhost:9000") = blsIDOf blsIds (go!"localhost:9000") :=
  (C159_violated_nul blsIdsLaws idKeys idKeysBy _ (by decide) (by decide)).2.1

end Ref

end CTng
