import Verif.Proofs.Wire
/- The JSON contracts of `Lib` and `XLib` hold for the concrete encoding/json; the OCTET STRING around the extension. -/
set_option autoImplicit false

namespace CTng
namespace Wire
open Json

/-! ### Texts with plain strings -/

theorem safe_plain {s : Str} (h : Safe s) : ∀ c ∈ s, c ≠ 34 ∧ c ≠ 92 ∧ ¬ c < 32 ∧ c < 128 := by
  intro c hc
  have := h c hc
  simp only [safeChar, Bool.and_eq_true, decide_eq_true_eq, bne_iff_ne, ne_eq] at this
  obtain ⟨⟨⟨h1, h2⟩, h3⟩, h4⟩ := this
  exact ⟨h3, h4, by simpa using h1, Nat.lt_trans h2 (by decide)⟩

theorem value_plain (n : Nat) (s r : Str) (h : Safe s) : value (n + 1) (34 :: (s ++ 34 :: r)) = some (.str s, r) := by
  have hs : skipWs (34 :: (s ++ 34 :: r)) = 34 :: (s ++ 34 :: r) := skipWs_nonspace _ _ (by decide)
  rw [value, hs]
  simp only [if_true]
  rw [strBody_plain s (safe_plain h) _ r (by simp; omega)]
  rfl

/-- One member with a plain name. -/
theorem members_one (n : Nat) (k : Str) (v : Json) (t r : Str) (hk : Safe k) (hv : value n t = some (v, 125 :: r)) :
    members (n + 1) (34 :: (k ++ 34 :: 58 :: t)) = some ([(k, v)], r) := by
  have hs : skipWs (34 :: (k ++ 34 :: 58 :: t)) = 34 :: (k ++ 34 :: 58 :: t) := skipWs_nonspace _ _ (by decide)
  have h1 : skipWs (58 :: t) = 58 :: t := skipWs_nonspace _ _ (by decide)
  have h2 : skipWs (125 :: r) = 125 :: r := skipWs_nonspace _ _ (by decide)
  rw [members, hs]
  simp only [if_true]
  rw [strBody_plain k (safe_plain hk) _ _ (by simp; omega)]
  simp [h1, hv, h2]

theorem members_more (n : Nat) (k : Str) (v : Json) (t r : Str) (l : List (Str × Json)) (r' : Str) (hk : Safe k)
    (hv : value n t = some (v, 44 :: r)) (hm : members n r = some (l, r')) :
    members (n + 1) (34 :: (k ++ 34 :: 58 :: t)) = some ((k, v) :: l, r') := by
  have hs : skipWs (34 :: (k ++ 34 :: 58 :: t)) = 34 :: (k ++ 34 :: 58 :: t) := skipWs_nonspace _ _ (by decide)
  have h1 : skipWs (58 :: t) = 58 :: t := skipWs_nonspace _ _ (by decide)
  have h2 : skipWs (44 :: r) = 44 :: r := skipWs_nonspace _ _ (by decide)
  rw [members, hs]
  simp only [if_true]
  rw [strBody_plain k (safe_plain hk) _ _ (by simp; omega)]
  simp [h1, hv, h2, hm]

theorem members_ws (n : Nat) (s : Str) : members n (32 :: s) = members n s := by
  cases n with
  | zero => rfl
  | succ n =>
    have : skipWs (32 :: s) = skipWs s := by simp [skipWs, isSpace]
    rw [members, this, members]

theorem value_obj (n : Nat) (t : Str) (l : List (Str × Json)) (r : Str) (h : members n (34 :: t) = some (l, r)) :
    value (n + 1) (123 :: 34 :: t) = some (.obj l, r) := by
  have hs : skipWs (123 :: 34 :: t) = 123 :: 34 :: t := skipWs_nonspace _ _ (by decide)
  have ht : skipWs (34 :: t) = 34 :: t := skipWs_nonspace _ _ (by decide)
  rw [value, hs]
  simp [ht, h]

theorem parse_two (k1 v1 k2 v2 : Str) (h1 : Safe k1) (h2 : Safe v1) (h3 : Safe k2) (h4 : Safe v2) :
    parse (go!"{\"" ++ k1 ++ go!"\":\"" ++ v1 ++ go!"\",\"" ++ k2 ++ go!"\":\"" ++ v2 ++ go!"\"}") =
      some (.obj [(k1, .str v1), (k2, .str v2)]) := by
  have e : (go!"{\"" ++ k1 ++ go!"\":\"" ++ v1 ++ go!"\",\"" ++ k2 ++ go!"\":\"" ++ v2 ++ go!"\"}") =
      123 :: 34 :: (k1 ++ 34 :: 58 :: 34 :: (v1 ++ 34 :: 44 :: 34 :: (k2 ++ 34 :: 58 :: 34 :: (v2 ++ 34 :: 125 :: [])))) := by
    simp [List.append_assoc]
  rw [parse, e]
  generalize hN : 2 * (123 :: 34 :: (k1 ++ 34 :: 58 :: 34 :: (v1 ++ 34 :: 44 :: 34 :: (k2 ++ 34 :: 58 :: 34 ::
    (v2 ++ 34 :: 125 :: []))))).length + 2 = N
  obtain ⟨m, rfl⟩ : ∃ m, N = m + 4 := ⟨N - 4, by simp at hN; omega⟩
  rw [value_obj (m + 3) _ _ _ (members_more (m + 2) k1 (.str v1) _ _ _ _ h1 (value_plain (m + 1) v1 _ h2)
    (members_one (m + 1) k2 (.str v2) _ [] h3 (value_plain m v2 _ h4)))]
  rfl

theorem parse_threshold (v : Str) (j : Json) (hj : NumOk j) (hv : Safe v) :
    parse (go!"{\"sign\":\"" ++ v ++ go!"\", \"ids\":" ++ render j ++ go!"}") =
      some (.obj [(go!"sign", .str v), (go!"ids", clean j)]) := by
  have e : (go!"{\"sign\":\"" ++ v ++ go!"\", \"ids\":" ++ render j ++ go!"}") =
      123 :: 34 :: (go!"sign" ++ 34 :: 58 :: 34 :: (v ++ 34 :: 44 :: 32 :: 34 :: (go!"ids" ++ 34 :: 58 :: (render j ++ 125 :: [])))) := by
    simp [List.append_assoc]
  have s1 : Safe (go!"sign") := by unfold Safe; decide +kernel
  have s2 : Safe (go!"ids") := by unfold Safe; decide +kernel
  rw [parse, e]
  generalize hN : 2 * (123 :: 34 :: (go!"sign" ++ 34 :: 58 :: 34 :: (v ++ 34 :: 44 :: 32 :: 34 :: (go!"ids" ++ 34 :: 58 ::
    (render j ++ 125 :: []))))).length + 2 = N
  have hz := size_le j hj
  obtain ⟨m, rfl⟩ : ∃ m, N = m + 4 := ⟨N - 4, by simp at hN; omega⟩
  have hm : size j ≤ m + 1 := by simp at hN; omega
  have hr := value_render j (m + 1) (125 :: []) hm hj (delim_cons _ _ (by simp))
  have ho := members_one (m + 1) (go!"ids") (clean j) _ [] s2 hr
  rw [← members_ws] at ho
  rw [value_obj (m + 3) _ _ _ (members_more (m + 2) (go!"sign") (.str v) _ _ _ _ s1 (value_plain (m + 1) v _ hv) ho)]
  rfl

theorem safe_ascii {s : Str} (h : Safe s) : Ascii s := fun c hc => (safe_plain h c hc).2.2.2

/-- encoding/json meets the contract `JsonLaws`, with every other library. -/
theorem json_laws (L : Lib) : (L.withJson).JsonLaws where
  two := by
    intro k1 v1 k2 v2 h1 h2 h3 h4 hne
    refine ⟨((GoMap.empty.set k1 v1).set k2 v2), ?_, ?_, ?_⟩
    · simp only [Lib.withJson, unmarshal, parse_two k1 v1 k2 v2 h1 h2 h3 h4]
      rfl
    · rw [GoMap.get_set_ne _ _ hne, GoMap.get_set_self]
    · rw [GoMap.get_set_self]
  threshold := by
    intro v ids hv hids
    have hj : NumOk (.arr (ids.map .str)) := numOkElems_map _ _ fun _ _ => trivial
    have i0 : fieldIndex [go!"Sign", go!"IDs"] (go!"sign") = some 0 := by decide +kernel
    have i1 : fieldIndex [go!"Sign", go!"IDs"] (go!"ids") = some 1 := by decide +kernel
    have hl := dList_map [] dStr (fun s => .str (sanitize s)) sanitize ids fun _ _ => rfl
    rw [map_utf8 ids fun s hs => Utf8.of_ascii (safe_ascii (hids s hs))] at hl
    simp only [Lib.withJson, unmarshal, parse_threshold v _ hj hv, dThreshold, dStruct, List.foldl_cons, List.foldl_nil, dMember,
      i0, i1, clean, cleanElems_map, List.map_map, Function.comp_def, hl]
    simp [dStr]

/-! ### ASCII output -/

theorem quoteN_ascii (n : Nat) : ∀ s : Str, Ascii s → Ascii (quoteN n s) := by
  induction n with
  | zero => intro s _ c hc; cases hc
  | succ n ih =>
    intro s hs
    cases s with
    | nil => intro c hc; cases hc
    | cons c t =>
      have hc : c < 128 := hs c (by simp)
      have he : ∀ c : UInt8, c < 128 → ∀ x ∈ escByte c, x < 128 := by
        have : ∀ i : Fin 128, ∀ x ∈ escByte (UInt8.ofNat i.val), x < 128 := by decide +kernel
        intro c hc
        have := this ⟨c.toNat, hc⟩
        simpa using this
      rw [quoteN, if_pos hc]
      intro x hx
      rcases List.mem_append.1 hx with hx | hx
      · exact he c hc x hx
      · exact ih t (fun y hy => hs y (by simp [hy])) x hx

theorem quote_ascii {s : Str} (h : Ascii s) : Ascii (quote s) := by
  intro c hc
  simp only [quote, List.cons_append, List.mem_cons, List.mem_append, List.not_mem_nil, or_false] at hc
  rcases hc with rfl | hc | rfl
  · decide
  · exact quoteN_ascii _ s h c hc
  · decide

theorem ascii_append {a b : Str} (ha : Ascii a) (hb : Ascii b) : Ascii (a ++ b) := by
  intro c hc
  rcases List.mem_append.1 hc with h | h
  · exact ha c h
  · exact hb c h

theorem ascii_cons {c : UInt8} {b : Str} (hc : c < 128) (hb : Ascii b) : Ascii (c :: b) := by
  intro x hx
  rcases List.mem_cons.1 hx with rfl | h
  · exact hc
  · exact hb x h

theorem rev_ascii (r : Revocation) (h : r.Plain) : Ascii (render (revJson r)) := by
  have q1 : Ascii (quote (go!"Period")) := by unfold Ascii; decide +kernel
  have q2 : Ascii (quote (go!"Delta_CRV")) := by unfold Ascii; decide +kernel
  have q3 : Ascii (quote (go!"SRH")) := by unfold Ascii; decide +kernel
  have n0 : Ascii [] := fun c hc => by cases hc
  have d := quote_ascii fun c hc => (b64enc_chars r.deltaCRV c hc).2.2
  simp only [revJson, render, renderMembers, renderMember, List.append_nil]
  exact ascii_cons (by decide) (ascii_append (ascii_append (ascii_append q1 (ascii_cons (by decide) (quote_ascii h.period)))
    (ascii_cons (by decide) (ascii_append (ascii_append q2 (ascii_cons (by decide) d))
      (ascii_cons (by decide) (ascii_append q3 (ascii_cons (by decide) (quote_ascii h.srh))))))) (ascii_cons (by decide) n0))

/-- encoding/json meets its part of `XLib.Laws`; `hw` is the contract of the OCTET STRING. -/
theorem xjson_laws {X : XLib} (hX : X.Laws) (wrap unwrap : Str → Str) (hw : ∀ s, unwrap (wrap s) = s) :
    (X.withJson wrap unwrap).Laws where
  sth := by
    intro d hd
    simp only [XLib.withJson, unmarshal_render _ _ _ (numOk_sth d), dSTH_read d hd.treeSize, if_true]
    have h1 : sanitize d.signer = d.signer := Utf8.of_ascii hd.signer
    have h2 : sanitize d.timestamp = d.timestamp := Utf8.of_ascii hd.timestamp
    have h3 : sanitize d.period = d.period := Utf8.of_ascii hd.period
    have h4 : sanitize d.rootHash = d.rootHash := Utf8.of_ascii hd.rootHash
    rw [h1, h2, h3, h4]
  rev := by
    intro r hr
    simp only [XLib.withJson, unmarshal_render _ _ _ (numOk_rev r), dRev_read r]
    have h1 : sanitize r.period = r.period := Utf8.of_ascii hr.period
    have h2 : sanitize r.srh = r.srh := Utf8.of_ascii hr.srh
    rw [h1, h2]
  ext := by
    intro e he
    simp only [XLib.withJson, hw, unmarshal_render _ _ _ (numOk_ext e), dExt_read e he]
  revAscii := rev_ascii
  bits := hX.bits
  compress := hX.compress
  createExt := hX.createExt
  createSubject := hX.createSubject
  createIssuer := hX.createIssuer
  createSKI := hX.createSKI
  createRawSubject := hX.createRawSubject
  createKeepsSubject := hX.createKeepsSubject
  createHasSubject := hX.createHasSubject
  createParse := hX.createParse

/-! ### The OCTET STRING -/

theorem beBytes_len (n : Nat) : ∀ k, n < 256 ^ (k + 1) → (beBytes n).length ≤ k + 1 := by
  fun_induction beBytes n with
  | case1 n h => intro k _; simp
  | case2 n h ih =>
    intro k hk
    cases k with
    | zero => simp at hk; omega
    | succ k =>
      have := ih k (by rw [Nat.pow_succ] at hk; exact Nat.div_lt_of_lt_mul (by omega))
      simp; omega

theorem derLen_append (k : Nat) : ∀ (a : Str) (acc : Nat) (m : Nat) (t r : Str) (v w : Nat), a.length = k →
    derLen k acc (a ++ t) = some (v, t) → derLen m v t = some (w, r) → derLen (k + m) acc (a ++ t) = some (w, r) := by
  induction k with
  | zero =>
    intro a acc m t r v w ha h1 h2
    obtain rfl := List.length_eq_zero_iff.1 ha
    simp only [derLen, List.nil_append, Option.some.injEq, Prod.mk.injEq] at h1
    rw [h1.1, Nat.zero_add]
    exact h2
  | succ k ih =>
    intro a acc m t r v w ha h1 h2
    cases a with
    | nil => cases ha
    | cons c a =>
      rw [show k + 1 + m = (k + m) + 1 by omega]
      simp only [List.cons_append, derLen] at h1 ⊢
      split at h1
      · cases h1
      · rename_i hacc
        split at h1
        · cases h1
        · rename_i hz
          rw [if_neg hacc, if_neg hz]
          exact ih a _ m t r v w (by simpa using ha) h1 h2

theorem derLen_be (n : Nat) : 0 < n → n < 2 ^ 31 → ∀ t, derLen (beBytes n).length 0 (beBytes n ++ t) = some (n, t) := by
  fun_induction beBytes n with
  | case1 n h =>
    intro h0 _ t
    have : (UInt8.ofNat n).toNat = n := by simp; omega
    simp [derLen, this]; omega
  | case2 n h ih =>
    intro h0 h1 t
    have h2 := ih (by omega) (by omega) (UInt8.ofNat (n % 256) :: t)
    have hb : (UInt8.ofNat (n % 256)).toNat = n % 256 := by simp
    rw [List.length_append, List.append_assoc]
    refine derLen_append _ _ 0 1 _ t (n / 256) n rfl h2 ?_
    have e : n / 256 * 256 + n % 256 = n := by omega
    show derLen (0 + 1) (n / 256) (UInt8.ofNat (n % 256) :: t) = some (n, t)
    rw [derLen, if_neg (by omega), hb, e, if_neg (by omega), derLen]

/-- What asn1 unwraps is what it wrapped, below its length limit. -/
theorem unoctet_octet (s : Str) (h : s.length < 2 ^ 31) : unoctet (octet s) = s := by
  unfold octet unoctet
  have h4 : ¬ ((4 : UInt8) &&& 31 = 31) := by decide
  by_cases hs : s.length < 128
  · have hl : (UInt8.ofNat s.length).toNat = s.length := by simp; omega
    have hlt : UInt8.ofNat s.length < 128 := by
      rw [UInt8.lt_iff_toNat_lt, hl]; exact hs
    simp only [hs, if_true, List.cons_append, List.nil_append, h4, if_false, hlt, hl]
    simp
  · have hb := beBytes_len s.length 3 (by omega)
    have hl : (UInt8.ofNat (128 + (beBytes s.length).length)).toNat = 128 + (beBytes s.length).length := by
      simp; omega
    have hlt : ¬ UInt8.ofNat (128 + (beBytes s.length).length) < 128 := by
      rw [UInt8.lt_iff_toNat_lt, hl]
      have : (128 : UInt8).toNat = 128 := rfl
      omega
    have hpos : 0 < (beBytes s.length).length := by
      rw [beBytes]; split <;> simp
    have hne : UInt8.ofNat (128 + (beBytes s.length).length) ≠ 128 := by
      intro e
      have := congrArg UInt8.toNat e
      rw [hl] at this
      have h128 : (128 : UInt8).toNat = 128 := rfl
      omega
    have hd := derLen_be s.length (by omega) h s
    simp only [hs, if_false, List.cons_append, h4, hlt, hne, hl, Nat.add_sub_cancel_left, hd]
    simp

end Wire
end CTng
