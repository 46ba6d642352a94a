import Verif.Spec.Laws
import Verif.Base.StrLemmas
import Verif.Model.Gossiper
/-
A concrete library satisfying the contracts of `Spec/Laws.lean`. Hashing is the identity and signatures are terms that
carry the key and the message, so no signature exists that its owner did not make and no two messages collide: an attack
shown over this library is not an attack on the cryptography. Used for examples and counterexamples only.
-/
set_option autoImplicit false

namespace CTng
namespace Ref

/-! ### JSON objects with string or string-list members -/

def skipWs : Str → Str
  | [] => []
  | c :: t => if c = 32 ∨ c = 9 ∨ c = 10 ∨ c = 13 then skipWs t else c :: t

/-- The rest after the next non-blank character, if that is `c`. -/
def eat (c : UInt8) (s : Str) : Option Str :=
  match skipWs s with
  | [] => none
  | x :: t => if x = c then some t else none

/-- The characters up to the closing quote, and the rest. Simplified: no `\u` escapes. -/
def jstr : Str → Option (Str × Str)
  | [] => none
  | c :: t =>
    if c = 34 then some ([], t)
    else if c = 92 then none
    else if c < 32 then none
    else (jstr t).map fun r => (c :: r.1, r.2)

inductive JVal where
  | str (s : Str)
  | arr (l : List Str)
  deriving DecidableEq

/-- A quoted string. -/
def jquoted (s : Str) : Option (Str × Str) := (eat 34 s).bind jstr

/-- Elements of a list of strings after `[` or `,`. -/
def jelems : Nat → Str → Option (List Str × Str)
  | 0, _ => none
  | n + 1, s =>
    match jquoted s with
    | none => none
    | some (a, r) =>
      match eat 44 r, eat 93 r with
      | some r, _ => (jelems n r).map fun x => (a :: x.1, x.2)
      | none, some r => some ([a], r)
      | none, none => none

/-- A value: a string, or a list of strings. -/
def jval (s : Str) : Option (JVal × Str) :=
  match eat 91 s with
  | none => (jquoted s).map fun r => (.str r.1, r.2)
  | some t =>
    match eat 93 t with
    | some r => some (.arr [], r)
    | none => (jelems (t.length + 1) t).map fun r => (.arr r.1, r.2)

/-- Members after `{` or `,`. -/
def jmembers : Nat → Str → Option (List (Str × JVal) × Str)
  | 0, _ => none
  | n + 1, s =>
    match jquoted s with
    | none => none
    | some (k, r) =>
      match (eat 58 r).bind jval with
      | none => none
      | some (v, r) =>
        match eat 44 r, eat 125 r with
        | some r, _ => (jmembers n r).map fun x => ((k, v) :: x.1, x.2)
        | none, some r => some ([(k, v)], r)
        | none, none => none

/-- A JSON object. -/
def jobj (s : Str) : Option (List (Str × JVal)) :=
  match eat 123 s with
  | none => none
  | some t =>
    match eat 125 t with
    | some r => if skipWs r = [] then some [] else none
    | none =>
      match jmembers (t.length + 1) t with
      | none => none
      | some (l, r) => if skipWs r = [] then some l else none

def toStrMap : List (Str × JVal) → GoMap Str Str → Option (GoMap Str Str)
  | [], m => some m
  | (k, .str v) :: t, m => toStrMap t (m.set k v)
  | (_, .arr _) :: _, _ => none

def toThreshold : List (Str × JVal) → Str × List Str → Option (Str × List Str)
  | [], m => some m
  | (k, .str v) :: t, m =>
    if k = go!"sign" then toThreshold t (v, m.2) else if k = go!"ids" then none else toThreshold t m
  | (k, .arr l) :: t, m =>
    if k = go!"ids" then toThreshold t (m.1, l) else if k = go!"sign" then none else toThreshold t m

/-- `"a","b",...` -/
def quoted : List Str → Str
  | [] => []
  | [a] => go!"\"" ++ a ++ go!"\""
  | a :: b :: t => go!"\"" ++ a ++ go!"\"," ++ quoted (b :: t)

/-- Marshal a list of strings (without escaping). -/
def strList (l : List Str) : Str := go!"[" ++ quoted l ++ go!"]"

/-! ### Signatures as terms -/

/-- The term "key k signed m". -/
def tok (k m : Str) : Str := hexEncode k ++ 58 :: hexEncode m

/-- Split at the first `;`. -/
def splitSemi : Str → Str → Option (List Str)
  | acc, [] => if acc = [] then some [] else none
  | acc, c :: t =>
    if c = 59 then
      match hexDecode acc.reverse, splitSemi [] t with
      | some x, some r => some (x :: r)
      | _, _ => none
    else splitSemi (c :: acc) t

def serTokens : List Str → Str
  | [] => []
  | a :: t => hexEncode a ++ 59 :: serTokens t

/-- A public key is the name of the key; `none` is the zero key. -/
def lib : Lib where
  RsaPub := Str
  RsaPriv := Str
  BlsPub := Option Str
  BlsSec := Str
  BlsSig := List Str
  sha256 := id
  md5 := id
  rsaSign := fun k d => some (tok k d)
  rsaVerify := fun p d s => match p with
    | none => .panic
    | some k => if s = tok k d then .ok else .fail
  jsonStrMap := fun s => match jobj s with
    | none => none
    | some l => toStrMap l .empty
  jsonThreshold := fun s => match jobj s with
    | none => none
    | some l => toThreshold l ([], [])
  jsonStrList := strList
  blsZeroPub := none
  blsZeroSig := []
  blsSign := fun k m => [tok k m]
  blsVerify := fun s p m => match p with
    | none => .fail
    | some k => if s = [tok k m] then .ok else .fail
  blsAggregate := fun l => sortStr l.flatten
  blsFastAggVerify := fun s ps m => match s with
    | none => .panic
    | some s =>
      if ps.filterMap id = [] then .fail
      else if s = sortStr ((ps.filterMap id).map fun k => tok k m) then .ok else .fail
  blsSerHex := fun s => 99 :: serTokens s
  blsDeHex := fun s => match s with
    | 99 :: t => splitSemi [] t
    | _ => none

def rsaPub : lib.RsaPriv → lib.RsaPub := fun k => k
def blsPub : lib.BlsSec → lib.BlsPub := fun k => some k

/-! ### The contracts -/

theorem tok_inj {k k' m m' : Str} (h : tok k m = tok k' m') : k = k' ∧ m = m' := by
  have hne : ∀ (s : Str), (58 : UInt8) ∉ hexEncode s := by
    intro s hs
    have := hexEncode_chars s _ hs
    revert this; decide
  have key : ∀ (a b c d : Str), (58 : UInt8) ∉ a → (58 : UInt8) ∉ c → a ++ 58 :: b = c ++ 58 :: d → a = c ∧ b = d := by
    intro a
    induction a with
    | nil =>
      intro b c d _ hc e
      cases c with
      | nil => simpa using e
      | cons x c => simp at e; simp [← e.1] at hc
    | cons y a ih =>
      intro b c d ha hc e
      cases c with
      | nil => simp at e; simp [e.1] at ha
      | cons x c =>
        simp only [List.cons_append, List.cons.injEq] at e
        simp only [List.mem_cons, not_or] at ha hc
        obtain ⟨h1, h2⟩ := ih b c d ha.2 hc.2 e.2
        exact ⟨by rw [e.1, h1], h2⟩
  obtain ⟨h1, h2⟩ := key _ _ _ _ (hne k) (hne k') h
  exact ⟨hexEncode_inj h1, hexEncode_inj h2⟩

theorem splitSemi_ser (acc s : Str) (t : List Str) (h : (59 : UInt8) ∉ s) :
    splitSemi acc (s ++ 59 :: serTokens t) =
      match hexDecode (acc.reverse ++ s), splitSemi [] (serTokens t) with
      | some x, some r => some (x :: r)
      | _, _ => none := by
  induction s generalizing acc with
  | nil => simp [splitSemi]
  | cons c s ih =>
    simp only [List.mem_cons, not_or] at h
    have hc : ¬ c = 59 := fun e => h.1 e.symm
    simp only [List.cons_append, splitSemi, hc, if_false]
    rw [ih _ h.2]
    simp

theorem splitSemi_serTokens (l : List Str) : splitSemi [] (serTokens l) = some l := by
  induction l with
  | nil => rfl
  | cons a t ih =>
    have : (59 : UInt8) ∉ hexEncode a := by
      intro hs
      have := hexEncode_chars a _ hs
      revert this; decide
    simp only [serTokens]
    rw [splitSemi_ser _ _ _ this, ih]
    simp [hexDecode_encode]

set_option maxRecDepth 10000 in
theorem hexChar_safe (c : UInt8) : isHexChar c = true → safeChar c = true :=
  forall_uint8 (p := fun c => isHexChar c = true → safeChar c = true) (by decide +kernel) c

theorem hexEncode_safe (s : Str) : Safe (hexEncode s) := fun c h => hexChar_safe c (hexEncode_chars s c h)

theorem serTokens_safe (l : List Str) : Safe (serTokens l) := by
  induction l with
  | nil => intro c h; simp [serTokens] at h
  | cons a t ih =>
    intro c h
    simp only [serTokens, List.mem_append, List.mem_cons] at h
    rcases h with h | rfl | h
    · exact hexEncode_safe a c h
    · decide
    · exact ih c h

theorem rsaLaws : lib.RsaLaws rsaPub where
  complete := by
    intro k d s h
    simp only [lib, Option.some.injEq] at h
    simp [lib, rsaPub, h]
  unique := by
    intro k d s h
    simp only [lib, rsaPub] at h ⊢
    split at h
    · simp_all
    · cases h
  digest := by
    intro k d d' s h h'
    simp only [lib, Option.some.injEq] at h h'
    exact (tok_inj (h.trans h'.symm)).2
  absent := by intro d s h; simp [lib] at h

theorem flatten_toks (ks : List Str) (m : Str) :
    (ks.map fun k => [tok k m]).flatten = ks.map fun k => tok k m := by
  induction ks with
  | nil => rfl
  | cons k t ih => simpa using ih

theorem somes (ks : List Str) : (ks.map fun k => (some k : Option Str)).filterMap id = ks := by
  induction ks with
  | nil => rfl
  | cons k t ih => simpa using ih

theorem aggregate_ok (ks : List Str) (m : Str) (h : ks ≠ []) :
    (if (ks.map fun k => (some k : Option Str)).filterMap id = [] then LibRes.fail
     else if sortStr (ks.map fun k => [tok k m]).flatten =
        sortStr (((ks.map fun k => (some k : Option Str)).filterMap id).map fun k => tok k m) then .ok else .fail) = .ok := by
  rw [somes, flatten_toks]
  simp [h]

theorem nones (n : Nat) : (List.replicate n (none : Option Str)).filterMap id = [] := by
  induction n with
  | zero => rfl
  | succ n ih => simp [List.replicate_succ, ih]

theorem aggregate_unique (ks : List Str) (n : Nat) (m : Str) (s : List Str)
    (h : (if ((ks.map fun k => (some k : Option Str)) ++ List.replicate n none).filterMap id = [] then LibRes.fail
      else if s = sortStr ((((ks.map fun k => (some k : Option Str)) ++ List.replicate n none).filterMap id).map
        fun k => tok k m) then .ok else .fail) = .ok) :
    s = sortStr (ks.map fun k => [tok k m]).flatten := by
  rw [List.filterMap_append, somes, nones, List.append_nil] at h
  rw [flatten_toks]
  split at h
  · cases h
  · split at h
    · assumption
    · cases h

theorem fastAgg_congr (s : List Str) {p q : List Str} {x y : List Str} (h3 : p = [] ↔ q = []) (h2 : x = y) :
    (if p = [] then LibRes.fail else if s = x then .ok else .fail) =
    (if q = [] then LibRes.fail else if s = y then .ok else .fail) := by
  subst h2; simp only [h3]

theorem blsLaws : lib.BlsLaws blsPub where
  complete := by intro k m; simp [lib, blsPub]
  aggregate := by
    intro ks m h
    exact aggregate_ok ks m h
  unique := by
    intro k m s h
    simp only [lib, blsPub] at h ⊢
    split at h
    · assumption
    · cases h
  agg_unique := by
    intro ks n m s h
    exact aggregate_unique ks n m s h
  agg_perm := by
    intro s t h
    exact (sortStr_eq_iff_perm _ _).2 h.flatten
  ver_perm := by
    intro s p q m h
    have h1 := h.filterMap id
    have h2 : sortStr ((p.filterMap id).map fun k => tok k m) = sortStr ((q.filterMap id).map fun k => tok k m) :=
      (sortStr_eq_iff_perm _ _).2 (h1.map _)
    have h3 : p.filterMap id = [] ↔ q.filterMap id = [] := by
      constructor
      · intro e; rw [e] at h1; exact List.nil_perm.1 h1
      · intro e; rw [e] at h1; exact List.perm_nil.1 h1
    cases s with
    | none => rfl
    | some s => exact fastAgg_congr s h3 h2
  hex := by intro s; exact splitSemi_serTokens s
  hex_safe := by
    intro s c h
    simp only [lib, List.mem_cons] at h
    rcases h with rfl | h
    · decide
    · exact serTokens_safe s c h

theorem safeChar_ne {c : UInt8} (h : safeChar c = true) : ¬ c = 34 ∧ ¬ c = 92 ∧ ¬ c < 32 := by
  simp only [safeChar, Bool.and_eq_true, decide_eq_true_eq, ne_eq] at h
  refine ⟨h.1.2, h.2, ?_⟩
  have := h.1.1.1
  simp only [UInt8.le_iff_toNat_le, UInt8.lt_iff_toNat_lt] at *
  omega

theorem jstr_safe (a t : Str) (h : Safe a) : jstr (a ++ 34 :: t) = some (a, t) := by
  induction a with
  | nil => simp [jstr]
  | cons c a ih =>
    obtain ⟨h1, h2, h3⟩ := safeChar_ne (h c (by simp))
    simp [jstr, h1, h2, h3, ih (fun c hc => h c (by simp [hc]))]

theorem eat_self (c : UInt8) (t : Str) (h : ¬ (c = 32 ∨ c = 9 ∨ c = 10 ∨ c = 13)) : eat c (c :: t) = some t := by
  simp [eat, skipWs, h]

theorem eat_ne (c d : UInt8) (t : Str) (h : ¬ (c = 32 ∨ c = 9 ∨ c = 10 ∨ c = 13)) (hd : c ≠ d) :
    eat d (c :: t) = none := by
  simp [eat, skipWs, h, hd]

theorem eat_space (d : UInt8) (t : Str) : eat d (32 :: t) = eat d t := by simp [eat, skipWs]

theorem jquoted_safe (a t : Str) (h : Safe a) : jquoted (34 :: (a ++ 34 :: t)) = some (a, t) := by
  rw [jquoted, eat_self _ _ (by decide)]
  exact jstr_safe a t h

theorem jquoted_space (t : Str) : jquoted (32 :: t) = jquoted t := by rw [jquoted, eat_space, jquoted]

theorem jval_safe (a t : Str) (h : Safe a) : jval (34 :: (a ++ 34 :: t)) = some (.str a, t) := by
  rw [jval, eat_ne _ _ _ (by decide) (by decide), jquoted_safe a t h]
  rfl

theorem jelems_quoted (l : List Str) (hl : l ≠ []) (hs : ∀ i ∈ l, Safe i) (n : Nat) (hn : l.length ≤ n) (r : Str) :
    jelems n (quoted l ++ 93 :: r) = some (l, r) := by
  induction l generalizing n with
  | nil => exact absurd rfl hl
  | cons a t ih =>
    cases n with
    | zero => simp at hn
    | succ n =>
      have ha : Safe a := hs a (by simp)
      cases t with
      | nil =>
        simp only [quoted, List.cons_append, List.nil_append, List.append_assoc, jelems]
        rw [jquoted_safe a _ ha]
        simp only
        rw [eat_ne _ _ _ (by decide) (by decide), eat_self _ _ (by decide)]
      | cons b u =>
        simp only [quoted, List.cons_append, List.nil_append, List.append_assoc, jelems]
        rw [jquoted_safe a _ ha]
        simp only
        rw [eat_self _ _ (by decide)]
        simp only
        rw [ih (by simp) (fun i hi => hs i (by simp [hi])) n (by simpa using hn)]
        rfl

theorem quoted_length (l : List Str) : l.length ≤ (quoted l).length := by
  match l with
  | [] => simp
  | [a] => simp [quoted]
  | a :: b :: t =>
    have := quoted_length (b :: t)
    simp [quoted] at this ⊢
    omega

theorem jval_list (l : List Str) (hs : ∀ i ∈ l, Safe i) (r : Str) :
    jval (strList l ++ r) = some (.arr l, r) := by
  have e : strList l ++ r = 91 :: (quoted l ++ 93 :: r) := by simp [strList]
  rw [e, jval, eat_self _ _ (by decide)]
  cases l with
  | nil =>
    simp only [quoted, List.nil_append]
    rw [eat_self _ _ (by decide)]
  | cons a t =>
    have h := jelems_quoted (a :: t) (by simp) hs ((quoted (a :: t) ++ 93 :: r).length + 1)
      (by have := quoted_length (a :: t); simp only [List.length_append]; omega) r
    have hq : ∃ u, quoted (a :: t) = 34 :: u := by cases t <;> simp [quoted]
    obtain ⟨u, hu⟩ := hq
    rw [hu] at h ⊢
    simp only [List.cons_append] at h ⊢
    rw [eat_ne _ _ _ (by decide) (by decide)]
    simp only
    rw [h]
    rfl

theorem jmembers_more (n : Nat) (k : Str) (v : JVal) (s r : Str) (hk : Safe k) (hv : jval s = some (v, 44 :: r)) :
    jmembers (n + 1) (34 :: (k ++ 34 :: 58 :: s)) = (jmembers n r).map fun x => ((k, v) :: x.1, x.2) := by
  rw [jmembers, jquoted_safe k _ hk]
  simp only
  rw [eat_self _ _ (by decide), Option.bind_some, hv]
  simp only
  rw [eat_self _ _ (by decide)]

theorem jmembers_last (n : Nat) (k : Str) (v : JVal) (s r : Str) (hk : Safe k) (hv : jval s = some (v, 125 :: r)) :
    jmembers (n + 1) (34 :: (k ++ 34 :: 58 :: s)) = some ([(k, v)], r) := by
  rw [jmembers, jquoted_safe k _ hk]
  simp only
  rw [eat_self _ _ (by decide), Option.bind_some, hv]
  simp only
  rw [eat_self _ _ (by decide), eat_ne _ _ _ (by decide) (by decide)]

theorem jmembers_space (n : Nat) (s : Str) : jmembers n (32 :: s) = jmembers n s := by
  cases n with
  | zero => rfl
  | succ n => rw [jmembers, jquoted_space, jmembers]

theorem jobj_two (k1 k2 s1 s2 : Str) (v1 v2 : JVal) (hk1 : Safe k1) (hk2 : Safe k2) (sp : Str)
    (hsp : sp = [] ∨ sp = [32])
    (h1 : jval s1 = some (v1, 44 :: (sp ++ 34 :: (k2 ++ 34 :: 58 :: s2)))) (h2 : jval s2 = some (v2, [125])) :
    jobj (123 :: 34 :: (k1 ++ 34 :: 58 :: s1)) = some [(k1, v1), (k2, v2)] := by
  rw [jobj, eat_self _ _ (by decide)]
  simp only
  rw [eat_ne _ _ _ (by decide) (by decide)]
  simp only [List.length_cons]
  rw [jmembers_more _ _ _ _ _ hk1 h1]
  have : ∀ n, jmembers (n + 1) (sp ++ 34 :: (k2 ++ 34 :: 58 :: s2)) = some ([(k2, v2)], []) := by
    intro n
    rcases hsp with rfl | rfl
    · exact jmembers_last n k2 v2 s2 [] hk2 h2
    · rw [List.singleton_append, jmembers_space]
      exact jmembers_last n k2 v2 s2 [] hk2 h2
  rw [this]
  simp [skipWs]

theorem jsonLaws : lib.JsonLaws where
  two := by
    intro k1 v1 k2 v2 hk1 hv1 hk2 hv2 hne
    refine ⟨(GoMap.empty.set k1 v1).set k2 v2, ?_, ?_, by simp⟩
    · simp only [lib, List.cons_append, List.nil_append, List.append_assoc]
      have := jobj_two k1 k2 _ _ (.str v1) (.str v2) hk1 hk2 [] (.inl rfl) (jval_safe v1 _ hv1) (jval_safe v2 _ hv2)
      simp only [List.nil_append] at this
      rw [this]
      rfl
    · rw [GoMap.get_set_ne _ _ hne]; simp
  threshold := by
    intro v ids hv hids
    have hk1 : Safe (go!"sign") := by unfold Safe; decide
    have hk2 : Safe (go!"ids") := by unfold Safe; decide
    have := jobj_two _ _ _ _ (.str v) (.arr ids) hk1 hk2 [32] (.inr rfl) (jval_safe v _ hv) (jval_list ids hids [125])
    simp only [lib, List.cons_append, List.nil_append, List.append_assoc] at this ⊢
    rw [this]
    simp [toThreshold]

/-! ### A sample configuration -/

/-- A key map in which every listed entity has the key of its own name. -/
def rsaMap (ids : List Str) : GoMap Str Str := ids.foldl (fun m i => m.set i i) .empty
def blsMap (ids : List Str) : GoMap Str (Option Str) := ids.foldl (fun m i => m.set i (some i)) .empty

/-- Configuration of entity `self` among logger L1, CA C1, monitor M1 and gossipers G1-G3, threshold 2. -/
def conf (self : Str) : CryptoConfig lib where
  threshold := 2
  n := 3
  hashScheme := 4
  signScheme := go!"rsa"
  thresholdScheme := go!"bls"
  selfID := self
  signPublicMap := rsaMap [go!"L1", go!"C1", go!"M1", go!"G1", go!"G2", go!"G3"]
  signSecretKey := self
  thresholdPublicMap := blsMap [go!"G1", go!"G2", go!"G3"]
  thresholdSecretKey := self

/-- Signature string of entity `id` on a message. -/
def rsaStr (id msg : Str) : Str := (RSASig.mk (tok id msg) id).toStr

/-- Fragment string of gossiper `id` on a message. -/
def blsStr (id msg : Str) : Str := ((SigFragment.toStr lib { sign := some [tok id msg], id := id }).getD [])

/-- An STH_INIT of logger L1 for period "5". -/
def sth : GossipObj where
  application := CTNG_APPLICATION
  period := go!"5"
  type := .STH_INIT
  signer := go!"L1"
  signers := []
  sig := ⟨rsaStr (go!"L1") (go!"L1rootA7"), []⟩
  timestamp := go!"t"
  cryptoScheme := go!"rsa"
  payload := ⟨go!"L1", go!"rootA", go!"7"⟩

/-- A second, different STH_INIT of L1 for the same period. -/
def sth' : GossipObj :=
  { sth with sig := ⟨rsaStr (go!"L1") (go!"L1rootB7"), []⟩, payload := ⟨go!"L1", go!"rootB", go!"7"⟩ }

/-- A clock reading in period "05". -/
def clk : Clock := ⟨go!"05", go!"10", go!"t"⟩

/-- Gossiper G1 with two peers. -/
def gconf : GConf lib where
  crypto := conf (go!"G1")
  connected := [go!"G2", go!"G3"]
  ownerURL := go!"M1"
  optThreshold := 1000
  optMode := false
  totalLogger := 1
  totalCA := 1
  jsonLen := fun _ => 100
  notifLen := fun _ => 10

end Ref
end CTng
