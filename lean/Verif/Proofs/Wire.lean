import Verif.Proofs.Json
import Verif.Model.Wire
import Verif.Spec.XLaws
/- Round trips of the typed JSON layer, and the JSON contracts of `Lib` and `XLib` for the concrete encoding/json. -/
set_option autoImplicit false

namespace CTng
namespace Wire
open Json

/-! ### Base 64 -/

theorem b64val_digit (n : Nat) (h : n < 64) : b64val (b64digit n) = some n := by
  have key : ∀ i : Fin 64, b64val (b64digit i.val) = some i.val := by decide +kernel
  exact key ⟨n, h⟩

theorem b64digit_ne (n : Nat) (h : n < 64) : b64digit n ≠ 61 ∧ b64digit n ≠ 10 ∧ b64digit n ≠ 13 ∧ b64digit n < 128 := by
  have key : ∀ i : Fin 64, b64digit i.val ≠ 61 ∧ b64digit i.val ≠ 10 ∧ b64digit i.val ≠ 13 ∧ b64digit i.val < 128 := by
    decide +kernel
  exact key ⟨n, h⟩

theorem ofNat_of (n : Nat) (c : UInt8) (h : n = c.toNat) : UInt8.ofNat n = c := by rw [h]; simp

theorem b64groups_enc (s : Str) : b64groups (b64enc s) = some s := by
  fun_induction b64enc s with
  | case1 => rfl
  | case2 a =>
    have ha := a.toNat_lt
    have h61 : b64val 61 = none := rfl
    simp only [b64groups, b64val_digit _ (by omega : a.toNat / 4 < 64), b64val_digit _ (by omega : a.toNat % 4 * 16 < 64), h61,
      b64last, if_true]
    rw [ofNat_of _ a (by omega)]
  | case3 a b =>
    have ha := a.toNat_lt
    have hb := b.toNat_lt
    have h61 : b64val 61 = none := rfl
    simp only [b64groups, b64val_digit _ (by omega : a.toNat / 4 < 64),
      b64val_digit _ (by omega : a.toNat % 4 * 16 + b.toNat / 16 < 64), b64val_digit _ (by omega : b.toNat % 16 * 4 < 64), h61,
      b64last, if_true, (b64digit_ne _ (by omega : b.toNat % 16 * 4 < 64)).1, if_false]
    rw [ofNat_of _ a (by omega), ofNat_of _ b (by omega)]
  | case4 a b c t ih =>
    have ha := a.toNat_lt
    have hb := b.toNat_lt
    have hc := c.toNat_lt
    simp only [b64groups, b64val_digit _ (by omega : a.toNat / 4 < 64),
      b64val_digit _ (by omega : a.toNat % 4 * 16 + b.toNat / 16 < 64),
      b64val_digit _ (by omega : b.toNat % 16 * 4 + c.toNat / 64 < 64), b64val_digit _ (by omega : c.toNat % 64 < 64), ih,
      Option.map_some]
    rw [ofNat_of _ a (by omega), ofNat_of _ b (by omega), ofNat_of _ c (by omega)]

theorem b64enc_chars (s : Str) : ∀ c ∈ b64enc s, c ≠ 10 ∧ c ≠ 13 ∧ c < 128 := by
  have h61 : (61 : UInt8) ≠ 10 ∧ (61 : UInt8) ≠ 13 ∧ (61 : UInt8) < 128 := by decide
  have key : ∀ n, n < 64 → b64digit n ≠ 10 ∧ b64digit n ≠ 13 ∧ b64digit n < 128 := fun n hn => (b64digit_ne n hn).2
  fun_induction b64enc s with
  | case1 => intro c hc; cases hc
  | case2 a =>
    have ha := a.toNat_lt
    intro c hc
    simp only [List.mem_cons, List.not_mem_nil, or_false] at hc
    rcases hc with rfl | rfl | rfl | rfl
    · exact key _ (by omega)
    · exact key _ (by omega)
    · exact h61
    · exact h61
  | case3 a b =>
    have ha := a.toNat_lt
    have hb := b.toNat_lt
    intro c hc
    simp only [List.mem_cons, List.not_mem_nil, or_false] at hc
    rcases hc with rfl | rfl | rfl | rfl
    · exact key _ (by omega)
    · exact key _ (by omega)
    · exact key _ (by omega)
    · exact h61
  | case4 a b c t ih =>
    have ha := a.toNat_lt
    have hb := b.toNat_lt
    have hc' := c.toNat_lt
    intro x hx
    simp only [List.mem_cons] at hx
    rcases hx with rfl | rfl | rfl | rfl | hx
    · exact key _ (by omega)
    · exact key _ (by omega)
    · exact key _ (by omega)
    · exact key _ (by omega)
    · exact ih x hx

theorem b64dec_enc (s : Str) : b64dec (b64enc s) = some s := by
  rw [b64dec, List.filter_eq_self.2, b64groups_enc]
  intro c hc
  simp [b64enc_chars s c hc]

/-! ### Strings that survive -/

/-- Valid UTF-8. -/
def Utf8 (s : Str) : Prop := sanitize s = s

theorem sanitizeN_ascii (s : Str) (h : Ascii s) : ∀ n, s.length ≤ n → sanitizeN n s = s := by
  induction s with
  | nil => intro n _; cases n <;> rfl
  | cons c t ih =>
    intro n hn
    cases n with
    | zero => simp at hn
    | succ n =>
      have hc : c < 128 := h c (by simp)
      simp only [sanitizeN, runeLen_ascii c t hc, List.take_zero, List.drop_zero]
      rw [ih (fun x hx => h x (by simp [hx])) n (by simpa using hn)]
      rfl

theorem Utf8.of_ascii {s : Str} (h : Ascii s) : Utf8 s := sanitizeN_ascii s h _ (Nat.le_refl _)

theorem utf8_b64 (s : Str) : sanitize (b64enc s) = b64enc s := Utf8.of_ascii fun c hc => (b64enc_chars s c hc).2.2

theorem cleanElems_map (l : List Json) : cleanElems l = l.map clean := by
  induction l with
  | nil => rfl
  | cons x t ih => simp [cleanElems, ih]

theorem cleanMembers_append (a b : List (Str × Json)) : cleanMembers (a ++ b) = cleanMembers a ++ cleanMembers b := by
  induction a with
  | nil => rfl
  | cons x t ih => simp [cleanMembers, ih]

theorem cleanMembers_opt (b : Bool) (k : Str) (j : Json) (hk : sanitize k = k) : cleanMembers (opt b k j) = opt b k (clean j) := by
  cases b <;> simp [opt, cleanMembers, cleanMember, hk]

theorem clean_jList {α : Type} (f : α → Json) (l : List α) : clean (jList f l) = jList (fun x => clean (f x)) l := by
  unfold jList
  split
  · rfl
  · simp [clean, cleanElems_map, Function.comp_def]

theorem numOkElems_map {α : Type} (f : α → Json) (l : List α) (h : ∀ x ∈ l, NumOk (f x)) : NumOkElems (l.map f) := by
  induction l with
  | nil => trivial
  | cons x t ih => exact ⟨h x (by simp), ih fun y hy => h y (by simp [hy])⟩

theorem numOkMembers_append (a b : List (Str × Json)) (ha : NumOkMembers a) (hb : NumOkMembers b) : NumOkMembers (a ++ b) := by
  induction a with
  | nil => exact hb
  | cons x t ih => exact ⟨ha.1, ih ha.2⟩

theorem numOkMembers_opt (b : Bool) (k : Str) (j : Json) (h : NumOk j) : NumOkMembers (opt b k j) := by
  cases b
  · exact ⟨h, trivial⟩
  · trivial

theorem numOk_jList {α : Type} (f : α → Json) (l : List α) (h : ∀ x ∈ l, NumOk (f x)) : NumOk (jList f l) := by
  unfold jList
  split
  · trivial
  · exact numOkElems_map f l h

/-! ### Reading lists -/

theorem dElems_map {α : Type} (z : α) (d : Dec α) (f : α → Json) (g : α → α) (l : List α) (h : ∀ x ∈ l, d z (f x) = (g x, true)) :
    dElems z d [] (l.map f) = (l.map g, true) := by
  induction l with
  | nil => rfl
  | cons x t ih => simp [dElems, h x (by simp), ih fun y hy => h y (by simp [hy])]

theorem dList_map {α : Type} (z : α) (d : Dec α) (f : α → Json) (g : α → α) (l : List α) (h : ∀ x ∈ l, d z (f x) = (g x, true)) :
    dList z d [] (.arr (l.map f)) = (l.map g, true) := dElems_map z d f g l h

theorem dList_jList {α : Type} (z : α) (d : Dec α) (f : α → Json) (g : α → α) (l : List α) (h : ∀ x ∈ l, d z (f x) = (g x, true)) :
    dList z d [] (jList f l) = (l.map g, true) := by
  unfold jList
  split
  · rename_i hl; subst hl; rfl
  · exact dList_map z d f g l h

/-- What a decoder does with the JSON a value is written as. -/
theorem unmarshal_render {α : Type} (z : α) (d : Dec α) (j : Json) (hj : NumOk j) : unmarshal z d (render j) = d z (clean j) := by
  simp [unmarshal, parse_render j hj]

theorem decode_render {α : Type} (z : α) (d : Dec α) (j : Json) (hj : NumOk j) : decode z d (render j) = d z (clean j) := by
  simp [decode, parseFirst_of_parse (parse_render j hj)]

theorem decode_encodeLine {α : Type} (z : α) (d : Dec α) (j : Json) (hj : NumOk j) : decode z d (encodeLine j) = d z (clean j) := by
  have := parseFirst_render j hj []
  simp only [decode, encodeLine, this]

theorem unmarshal_encodeLine {α : Type} (z : α) (d : Dec α) (j : Json) (hj : NumOk j) :
    unmarshal z d (encodeLine j) = d z (clean j) := by
  have := value_render j (2 * (render j ++ [10]).length + 2) [10] (by have := size_le j hj; simp; omega) hj
    (fun c t e => by cases e; exact .inl rfl)
  have h : parse (render j ++ [10]) = some (clean j) := by
    rw [parse, this]
    rfl
  simp only [unmarshal, encodeLine, h]

/-! ### Objects -/

/-- The object with every string made valid UTF-8, as its reader gets it. -/
def cleanObj (g : GossipObj) : GossipObj :=
  { application := sanitize g.application, period := sanitize g.period, type := GType.ofStr (sanitize g.type.toStr),
    signer := sanitize g.signer, signers := g.signers.map sanitize, sig := ⟨sanitize g.sig.s0, sanitize g.sig.s1⟩,
    timestamp := sanitize g.timestamp, cryptoScheme := sanitize g.cryptoScheme,
    payload := ⟨sanitize g.payload.p0, sanitize g.payload.p1, sanitize g.payload.p2⟩ }

theorem numOk_gossip (g : GossipObj) : NumOk (gossipJson g) := by
  refine numOkMembers_append _ _ (numOkMembers_append _ _ ?_ ?_) ?_
  · exact ⟨trivial, trivial, trivial, trivial, trivial⟩
  · exact numOkMembers_opt _ _ _ (numOkElems_map _ _ fun _ _ => trivial)
  · exact ⟨⟨trivial, trivial, trivial⟩, trivial, trivial, ⟨trivial, trivial, trivial, trivial⟩, trivial⟩

theorem san_gossip : (∀ k ∈ gossipNames, sanitize k = k) := by decide +kernel

theorem idx_gossip : fieldIndex gossipNames (go!"application") = some 0 ∧ fieldIndex gossipNames (go!"period") = some 1 ∧
    fieldIndex gossipNames (go!"type") = some 2 ∧ fieldIndex gossipNames (go!"signer") = some 3 ∧
    fieldIndex gossipNames (go!"signers") = some 4 ∧ fieldIndex gossipNames (go!"signature") = some 5 ∧
    fieldIndex gossipNames (go!"timestamp") = some 6 ∧ fieldIndex gossipNames (go!"crypto_scheme") = some 7 ∧
    fieldIndex gossipNames (go!"payload") = some 8 := by decide +kernel

theorem dGossip_read (g : GossipObj) : dGossip .zero (clean (gossipJson g)) = (cleanObj g, true) := by
  obtain ⟨i0, i1, i2, i3, i4, i5, i6, i7, i8⟩ := idx_gossip
  have sn : ∀ k ∈ gossipNames, sanitize k = k := san_gossip
  have s0 := sn (go!"application") (by decide +kernel)
  have s1 := sn (go!"period") (by decide +kernel)
  have s2 := sn (go!"type") (by decide +kernel)
  have s3 := sn (go!"signer") (by decide +kernel)
  have s4 := sn (go!"signers") (by decide +kernel)
  have s5 := sn (go!"signature") (by decide +kernel)
  have s6 := sn (go!"timestamp") (by decide +kernel)
  have s7 := sn (go!"crypto_scheme") (by decide +kernel)
  have s8 := sn (go!"payload") (by decide +kernel)
  have hl : ∀ l : List Str, dList [] dStr [] (.arr (l.map fun s => .str (sanitize s))) = (l.map sanitize, true) := fun l =>
    dList_map [] dStr (fun s => .str (sanitize s)) sanitize l fun _ _ => rfl
  rw [gossipJson, clean, cleanMembers_append, cleanMembers_append, cleanMembers_opt _ _ _ s4]
  simp only [cleanMembers, cleanMember, s0, s1, s2, s3, s5, s6, s7, s8, clean, cleanElems, cleanElems_map, List.map_map,
    Function.comp_def]
  cases hs : g.signers with
  | nil =>
    simp only [opt, List.isEmpty_nil, if_true, List.append_nil, List.cons_append, List.nil_append, dGossip, dStruct,
      List.foldl_cons, List.foldl_nil, dMember, i0, i1, i2, i3, i5, i6, i7, i8]
    simp [dStr, dType, dSig2, dPay3, dAt, cleanObj, GossipObj.zero, hs]
  | cons a t =>
    have hl' := hl (a :: t)
    simp only [opt, List.isEmpty_cons, Bool.false_eq_true, if_false, List.cons_append, List.nil_append, dGossip, dStruct,
      List.foldl_cons, List.foldl_nil, dMember, i0, i1, i2, i3, i4, i5, i6, i7, i8, GossipObj.zero, hl']
    simp [dStr, dType, dSig2, dPay3, dAt, cleanObj, hs]

/-- An object encoding/json keeps. -/
structure ObjOk (g : GossipObj) : Prop where
  application : Utf8 g.application
  period : Utf8 g.period
  type : GType.ofStr g.type.toStr = g.type ∧ Utf8 g.type.toStr
  signer : Utf8 g.signer
  signers : ∀ s ∈ g.signers, Utf8 s
  sig : Utf8 g.sig.s0 ∧ Utf8 g.sig.s1
  timestamp : Utf8 g.timestamp
  cryptoScheme : Utf8 g.cryptoScheme
  payload : Utf8 g.payload.p0 ∧ Utf8 g.payload.p1 ∧ Utf8 g.payload.p2

theorem map_utf8 (l : List Str) (h : ∀ s ∈ l, Utf8 s) : l.map sanitize = l := by
  induction l with
  | nil => rfl
  | cons x t ih => simp [h x (by simp) |>.symm ▸ (h x (by simp)), ih fun y hy => h y (by simp [hy])]; exact h x (by simp)

theorem cleanObj_eq {g : GossipObj} (h : ObjOk g) : cleanObj g = g := by
  have h1 := h.application
  have h2 := h.period
  have h3 := h.type
  have h4 := h.signer
  have h5 := map_utf8 _ h.signers
  have h6 := h.sig
  have h7 := h.timestamp
  have h8 := h.cryptoScheme
  have h9 := h.payload
  unfold Utf8 at *
  unfold cleanObj
  rw [h1, h2, h3.2, h3.1, h4, h5, h6.1, h6.2, h7, h8, h9.1, h9.2.1, h9.2.2]

theorem ObjOk.of_plain {g : GossipObj} (h : g.Plain) : ObjOk g where
  application := .of_ascii h.application
  period := .of_ascii h.period
  type := ⟨h.type.1, .of_ascii h.type.2⟩
  signer := .of_ascii h.signer
  signers := fun s hs => .of_ascii (h.signers s hs)
  sig := ⟨.of_ascii h.sig.1, .of_ascii h.sig.2⟩
  timestamp := .of_ascii h.timestamp
  cryptoScheme := .of_ascii h.cryptoScheme
  payload := ⟨.of_ascii h.payload.1, .of_ascii h.payload.2.1, .of_ascii h.payload.2.2⟩

theorem dGossip_ok {g : GossipObj} (h : ObjOk g) : dGossip .zero (clean (gossipJson g)) = (g, true) := by
  rw [dGossip_read, cleanObj_eq h]

theorem dBytes_read (cur s : Str) : dBytes cur (clean (.str (b64enc s))) = (s, true) := by
  simp [clean, utf8_b64, dBytes, b64dec_enc]

theorem dNat_read (bound n cur : Nat) (h : n < bound) : dNat bound cur (clean (.num (itoa n))) = (n, true) := by
  simp [clean, dNat, atoi_itoa, h]

theorem numOk_itoa (n : Nat) : NumOk (.num (itoa n)) := .inl ⟨n, rfl⟩

/-! ### Notifications -/

/-- The notification as its reader gets it. -/
def cleanNotif (n : Notification) : Notification :=
  { sender := sanitize n.sender, period := sanitize n.period, type := GType.ofStr (sanitize n.type.toStr),
    entity := sanitize n.entity, objhash := n.objhash }

theorem numOk_notif (n : Notification) : NumOk (notifJson n) := ⟨trivial, trivial, trivial, trivial, trivial, trivial⟩

theorem idx_notif : fieldIndex notifNames (go!"sender") = some 0 ∧ fieldIndex notifNames (go!"period") = some 1 ∧
    fieldIndex notifNames (go!"type") = some 2 ∧ fieldIndex notifNames (go!"entity_url") = some 3 ∧
    fieldIndex notifNames (go!"objhash") = some 4 ∧ sanitize (go!"sender") = go!"sender" ∧ sanitize (go!"period") = go!"period" ∧
    sanitize (go!"type") = go!"type" ∧ sanitize (go!"entity_url") = go!"entity_url" ∧ sanitize (go!"objhash") = go!"objhash" := by
  decide +kernel

theorem dNotif_read (n : Notification) : dNotif notifZero (clean (notifJson n)) = (cleanNotif n, true) := by
  obtain ⟨i0, i1, i2, i3, i4, s0, s1, s2, s3, s4⟩ := idx_notif
  have hb := dBytes_read [] n.objhash
  simp only [clean] at hb
  simp only [notifJson, clean, cleanMembers, cleanMember, s0, s1, s2, s3, s4, dNotif, dStruct, List.foldl_cons, List.foldl_nil,
    dMember, i0, i1, i2, i3, i4, notifZero, hb]
  simp [dStr, dType, cleanNotif]

/-! ### Payloads -/

theorem numOk_sth (d : STHData) : NumOk (sthJson d) := ⟨trivial, trivial, trivial, trivial, numOk_itoa _, trivial⟩

theorem idx_sth : fieldIndex sthNames (go!"Signer") = some 0 ∧ fieldIndex sthNames (go!"Timestamp") = some 1 ∧
    fieldIndex sthNames (go!"Period") = some 2 ∧ fieldIndex sthNames (go!"RootHash") = some 3 ∧
    fieldIndex sthNames (go!"TreeSize") = some 4 ∧ sanitize (go!"Signer") = go!"Signer" ∧
    sanitize (go!"Timestamp") = go!"Timestamp" ∧ sanitize (go!"Period") = go!"Period" ∧
    sanitize (go!"RootHash") = go!"RootHash" ∧ sanitize (go!"TreeSize") = go!"TreeSize" := by
  decide +kernel

theorem dSTH_read (d : STHData) (h : d.treeSize < 2 ^ 63) : dSTH sthZero (clean (sthJson d)) =
    (⟨sanitize d.signer, sanitize d.timestamp, sanitize d.period, sanitize d.rootHash, d.treeSize⟩, true) := by
  obtain ⟨i0, i1, i2, i3, i4, s0, s1, s2, s3, s4⟩ := idx_sth
  have hb := dNat_read (2 ^ 63) d.treeSize 0 h
  simp only [clean] at hb
  simp only [sthJson, clean, cleanMembers, cleanMember, s0, s1, s2, s3, s4, dSTH, dStruct, List.foldl_cons, List.foldl_nil,
    dMember, i0, i1, i2, i3, i4, sthZero, hb]
  simp [dStr]

theorem numOk_rev (r : Revocation) : NumOk (revJson r) := ⟨trivial, trivial, trivial, trivial⟩

theorem idx_rev : fieldIndex revNames (go!"Period") = some 0 ∧ fieldIndex revNames (go!"Delta_CRV") = some 1 ∧
    fieldIndex revNames (go!"SRH") = some 2 ∧ sanitize (go!"Period") = go!"Period" ∧
    sanitize (go!"Delta_CRV") = go!"Delta_CRV" ∧ sanitize (go!"SRH") = go!"SRH" := by
  decide +kernel

theorem dRev_read (r : Revocation) : dRev revZero (clean (revJson r)) = (⟨sanitize r.period, r.deltaCRV, sanitize r.srh⟩, true) := by
  obtain ⟨i0, i1, i2, s0, s1, s2⟩ := idx_rev
  have hb := dBytes_read [] r.deltaCRV
  simp only [clean] at hb
  simp only [revJson, clean, cleanMembers, cleanMember, s0, s1, s2, dRev, dStruct, List.foldl_cons, List.foldl_nil,
    dMember, i0, i1, i2, revZero, hb]
  simp [dStr]

/-! ### The certificate extension -/

theorem numOk_proof (p : MProof) : NumOk (proofJson p) := ⟨numOk_jList _ _ fun _ _ => trivial, numOk_itoa _, trivial⟩

theorem idx_proof : fieldIndex proofNames (go!"Siblings") = some 0 ∧ fieldIndex proofNames (go!"Path") = some 1 ∧
    sanitize (go!"Siblings") = go!"Siblings" ∧ sanitize (go!"Path") = go!"Path" := by
  decide +kernel

theorem dProof_read (p : MProof) (h : p.path < 2 ^ 32) : dProof ⟨[], 0⟩ (clean (proofJson p)) = (p, true) := by
  obtain ⟨i0, i1, s0, s1⟩ := idx_proof
  have hb := dNat_read (2 ^ 32) p.path 0 h
  have hl := dList_jList [] dBytes (fun s => clean (.str (b64enc s))) id p.siblings fun s _ => dBytes_read [] s
  rw [List.map_id] at hl
  simp only [proofJson, clean, clean_jList] at hb hl ⊢
  simp only [cleanMembers, cleanMember, s0, s1, clean_jList, dProof, dStruct, List.foldl_cons, List.foldl_nil,
    dMember, i0, i1, clean, hb, hl]
  simp

theorem numOk_poi (p : POI) : NumOk (poiJson p) := by
  refine numOkMembers_append _ _ (numOkMembers_append _ _ (numOkMembers_append _ _ ?_ ?_) ?_) ?_
  · split
    · trivial
    · exact ⟨numOk_proof _, trivial⟩
  · exact numOkMembers_opt _ _ _ trivial
  · exact numOkMembers_opt _ _ _ trivial
  · exact numOkMembers_opt _ _ _ trivial

theorem idx_poi : fieldIndex poiNames (go!"poi") = some 0 ∧ fieldIndex poiNames (go!"subjectKeyId") = some 1 ∧
    fieldIndex poiNames (go!"issuer") = some 2 ∧ fieldIndex poiNames (go!"loggerID") = some 3 ∧
    sanitize (go!"poi") = go!"poi" ∧ sanitize (go!"subjectKeyId") = go!"subjectKeyId" ∧
    sanitize (go!"issuer") = go!"issuer" ∧ sanitize (go!"loggerID") = go!"loggerID" := by
  decide +kernel

theorem dMember_opt {α : Type} (names : List Str) (set : Nat → Dec α) (b : Bool) (k : Str) (j : Json) (i : Nat) (acc : α × Bool)
    (hk : fieldIndex names k = some i) :
    (opt b k j).foldl (dMember names set) acc = if b then acc else ((set i acc.1 j).1, acc.2 && (set i acc.1 j).2) := by
  cases b <;> simp [opt, dMember, hk]

theorem dPtr_obj {α : Type} (z : α) (d : Dec α) (l : List (Str × Json)) :
    dPtr z d none (.obj l) = (some (d z (.obj l)).1, (d z (.obj l)).2) := rfl

theorem dPOI_read (p : POI) (h : ∀ q, p.poi = some q → q.path < 2 ^ 32) : dPOI poiZero (clean (poiJson p)) =
    (⟨p.poi, p.subjectKeyId, sanitize p.issuer, sanitize p.loggerID⟩, true) := by
  obtain ⟨i0, i1, i2, i3, s0, s1, s2, s3⟩ := idx_poi
  obtain ⟨q, ski, iss, lid⟩ := p
  have hb := dBytes_read [] ski
  simp only [clean] at hb
  have e : sanitize [] = [] := rfl
  rw [poiJson, clean, cleanMembers_append, cleanMembers_append, cleanMembers_append, cleanMembers_opt _ _ _ s1,
    cleanMembers_opt _ _ _ s2, cleanMembers_opt _ _ _ s3, dPOI, dStruct, List.foldl_append, List.foldl_append, List.foldl_append,
    dMember_opt _ _ _ _ _ _ _ i1, dMember_opt _ _ _ _ _ _ _ i2, dMember_opt _ _ _ _ _ _ _ i3]
  cases q with
  | none =>
    cases ski <;> cases iss <;> cases lid <;> simp [cleanMembers, clean, poiZero, dStr, e, hb]
  | some q =>
    have hq := dProof_read q (h q rfl)
    have hp : dPtr ⟨[], 0⟩ dProof none (clean (proofJson q)) = (some q, true) := by
      simp only [proofJson, clean] at hq ⊢
      rw [dPtr_obj, hq]
    simp only [cleanMembers, cleanMember, s0, List.foldl_cons, List.foldl_nil, dMember, i0, poiZero, hp]
    cases ski <;> cases iss <;> cases lid <;> simp [clean, dStr, e, hb]

theorem numOk_info (l : LoggerInfo) : NumOk (infoJson l) := ⟨numOk_gossip _, numOk_poi _, trivial⟩

theorem idx_info : fieldIndex infoNames (go!"STH") = some 0 ∧ fieldIndex infoNames (go!"POI") = some 1 ∧
    sanitize (go!"STH") = go!"STH" ∧ sanitize (go!"POI") = go!"POI" := by
  decide +kernel

theorem dInfo_read (l : LoggerInfo) (h : l.Plain) : dInfo infoZero (clean (infoJson l)) = (l, true) := by
  obtain ⟨i0, i1, s0, s1⟩ := idx_info
  have h1 := dGossip_ok (.of_plain h.sth)
  have h2 := dPOI_read l.poi h.poi.poi
  have u1 : sanitize l.poi.issuer = l.poi.issuer := Utf8.of_ascii h.poi.issuer
  have u2 : sanitize l.poi.loggerID = l.poi.loggerID := Utf8.of_ascii h.poi.loggerID
  rw [u1, u2] at h2
  simp only [infoJson, clean, cleanMembers, cleanMember, s0, s1, dInfo, dStruct, List.foldl_cons, List.foldl_nil,
    dMember, i0, i1, infoZero, h1, h2]
  simp

theorem numOk_ext (e : CTngExt) : NumOk (extJson e) := by
  refine numOkMembers_append _ _ ?_ ?_
  · exact ⟨numOkMembers_opt _ _ _ (numOk_itoa _), trivial⟩
  · exact numOkMembers_opt _ _ _ (numOkElems_map _ _ fun _ _ => numOk_info _)

theorem idx_ext : fieldIndex extNames (go!"SequenceNumber") = some 0 ∧ fieldIndex extNames (go!"LoggerInformation") = some 1 ∧
    fieldIndex [go!"RID"] (go!"RID") = some 0 ∧ sanitize (go!"SequenceNumber") = go!"SequenceNumber" ∧
    sanitize (go!"LoggerInformation") = go!"LoggerInformation" ∧ sanitize (go!"RID") = go!"RID" := by
  decide +kernel

theorem dExt_read (e : CTngExt) (h : e.Plain) : dExt .zero (clean (extJson e)) = (e, true) := by
  obtain ⟨i0, i1, i2, s0, s1, s2⟩ := idx_ext
  obtain ⟨rid, ls⟩ := e
  have hn := dNat_read (2 ^ 63) rid 0 h.rid
  have hr : dRid 0 (clean (.obj (opt (rid == 0) (go!"RID") (.num (itoa rid))))) = (rid, true) := by
    rw [clean, cleanMembers_opt _ _ _ s2, dRid, dStruct, dMember_opt _ _ _ _ _ _ _ i2]
    simp only [clean] at hn ⊢
    rw [hn]
    cases rid <;> simp
  have hl := dList_map infoZero dInfo (fun l => clean (infoJson l)) id ls fun l hl => dInfo_read l (h.loggers l hl)
  rw [List.map_id] at hl
  rw [extJson, clean, cleanMembers_append, cleanMembers_opt _ _ _ s1, dExt, dStruct, List.foldl_append, dMember_opt _ _ _ _ _ _ _ i1]
  simp only [cleanMembers, cleanMember, s0, List.foldl_cons, List.foldl_nil, dMember, i0, CTngExt.zero, hr]
  simp only [clean, cleanElems_map, List.map_map, Function.comp_def, hl]
  cases ls <;> simp

/-! ### Client updates -/

theorem numOk_update (u : ClientUpdate) : NumOk (updateJson u) :=
  ⟨numOkElems_map _ _ fun _ _ => numOk_gossip _, numOkElems_map _ _ fun _ _ => numOk_gossip _,
    numOkElems_map _ _ fun _ _ => numOk_gossip _, numOkElems_map _ _ fun _ _ => numOk_gossip _, trivial, trivial, trivial⟩

theorem idx_update : fieldIndex updateNames (go!"STHs") = some 0 ∧ fieldIndex updateNames (go!"REVs") = some 1 ∧
    fieldIndex updateNames (go!"POM_CONs") = some 2 ∧ fieldIndex updateNames (go!"POM_ACCs") = some 3 ∧
    fieldIndex updateNames (go!"MonitorID") = some 4 ∧ fieldIndex updateNames (go!"Period") = some 5 ∧
    sanitize (go!"STHs") = go!"STHs" ∧ sanitize (go!"REVs") = go!"REVs" ∧ sanitize (go!"POM_CONs") = go!"POM_CONs" ∧
    sanitize (go!"POM_ACCs") = go!"POM_ACCs" ∧ sanitize (go!"MonitorID") = go!"MonitorID" ∧ sanitize (go!"Period") = go!"Period" := by
  decide +kernel

/-- The update as its reader gets it. -/
def cleanUpdate (u : ClientUpdate) : ClientUpdate :=
  ⟨u.sths.map cleanObj, u.revs.map cleanObj, u.pomCONs.map cleanObj, u.pomACCs.map cleanObj, sanitize u.monitorID, sanitize u.period⟩

theorem dUpdate_read (u : ClientUpdate) : dUpdate updateZero (clean (updateJson u)) = (cleanUpdate u, true) := by
  obtain ⟨i0, i1, i2, i3, i4, i5, s0, s1, s2, s3, s4, s5⟩ := idx_update
  have hl : ∀ l : List GossipObj, dList .zero dGossip [] (.arr (l.map fun g => clean (gossipJson g))) = (l.map cleanObj, true) :=
    fun l => dList_map _ _ _ cleanObj l fun g _ => dGossip_read g
  simp only [updateJson, clean, cleanMembers, cleanMember, s0, s1, s2, s3, s4, s5, cleanElems_map, List.map_map, Function.comp_def, dUpdate, dStruct, List.foldl_cons,
    List.foldl_nil, dMember, i0, i1, i2, i3, i4, i5, updateZero, hl]
  simp [dStr, cleanUpdate]

end Wire
end CTng
