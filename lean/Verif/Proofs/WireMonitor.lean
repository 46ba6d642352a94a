import Verif.Model.WireMonitor
import Verif.Proofs.WireNet
import Verif.Proofs.JsonIndent
import Verif.Props.Monitor
/- What a monitor that exchanges bytes keeps, sends and writes is text, and reads back as it was. -/
set_option autoImplicit false

namespace CTng
namespace Wire
open Json Mon
variable {L : Lib} (X : XLib) (c : MonConf L)

/-- An update encoding/json keeps. -/
structure UpdOk (u : ClientUpdate) : Prop where
  sths : ∀ g ∈ u.sths, ObjOk g
  revs : ∀ g ∈ u.revs, ObjOk g
  pomCONs : ∀ g ∈ u.pomCONs, ObjOk g
  pomACCs : ∀ g ∈ u.pomACCs, ObjOk g
  monitorID : Utf8 u.monitorID
  period : Utf8 u.period

theorem map_cleanObj (l : List GossipObj) (h : ∀ g ∈ l, ObjOk g) : l.map cleanObj = l := by
  induction l with
  | nil => rfl
  | cons x t ih => rw [List.map_cons, cleanObj_eq (h x (by simp)), ih fun y hy => h y (by simp [hy])]

theorem cleanUpdate_eq {u : ClientUpdate} (h : UpdOk u) : cleanUpdate u = u := by
  have h5 : sanitize u.monitorID = u.monitorID := h.monitorID
  have h6 : sanitize u.period = u.period := h.period
  rw [cleanUpdate, map_cleanObj _ h.sths, map_cleanObj _ h.revs, map_cleanObj _ h.pomCONs, map_cleanObj _ h.pomACCs, h5, h6]

theorem blank_two : Blank (go!"  ") := by intro c hc; revert c; decide

theorem unmarshal_fileText {u : ClientUpdate} (h : UpdOk u) : unmarshal updateZero dUpdate (fileText u) = (u, true) := by
  rw [unmarshal, fileText, parse_marshalIndent _ _ (by intro c hc; cases hc) blank_two _ (numOk_update u)]
  show dUpdate updateZero (clean (updateJson u)) = _
  rw [dUpdate_read, cleanUpdate_eq h]

theorem unmarshal_updateText {u : ClientUpdate} (h : UpdOk u) :
    unmarshal updateZero dUpdate (render (updateJson u)) = (u, true) := by
  rw [unmarshal_render _ _ _ (numOk_update u), dUpdate_read, cleanUpdate_eq h]

theorem loadUpdate_fileText {u : ClientUpdate} (h : UpdOk u) : loadUpdate (some (fileText u)) = some u := by
  simp only [loadUpdate, unmarshal_fileText h, if_true]

theorem updatePath_inj {dir p q : Str} (h : updatePath dir p = updatePath dir q) : p = q := by
  unfold updatePath at h
  exact List.append_cancel_left (List.append_cancel_right h)

/-- Objects brought by bytes are text. -/
theorem read_delivers {e : BMonEvent} {g : GossipObj} (h : Delivers e.read g) : ObjOk g := by
  cases e with
  | gossip body =>
    rcases h with h | ⟨i, h⟩
    · cases h; exact decode_gossip_ok body
    · cases h
  | answer i b =>
    cases b with
    | none => rcases h with h | ⟨i, h⟩ <;> cases h
    | some t =>
      rcases h with h | ⟨j, h⟩
      · cases h
      · simp only [BMonEvent.read, MonEvent.answer.injEq] at h
        obtain ⟨_, h⟩ := h
        split at h
        · cases h; exact unmarshal_gossip_ok t
        · cases h
  | query clk => rcases h with h | ⟨i, h⟩ <;> cases h
  | wait i clk => rcases h with h | ⟨i, h⟩ <;> cases h
  | crv i => rcases h with h | ⟨i, h⟩ <;> cases h
  | finish clk => rcases h with h | ⟨i, h⟩ <;> cases h

/-- The configuration is text. -/
structure MonText (c : MonConf L) : Prop where
  self : Utf8 c.crypto.selfID
  urls : ∀ u ∈ c.urls, Utf8 u

theorem utf8_hex (s : Str) : Utf8 (hexEncode s) := utf8_safe (Ref.hexEncode_safe s)

theorem utf8_rsaSig {s : RSASig} (h : Utf8 s.id) : Utf8 s.toStr :=
  (((((by decide +kernel : Utf8 (go!"{\"sig\":\""))).append (utf8_hex _)).append
    (by decide +kernel : Utf8 (go!"\",\"id\":\""))).append h).append (by decide +kernel : Utf8 (go!"\"}"))

theorem accusation_ok {clk : Clock} {u : Str} (hc : MonText c) (hk : ClockOk clk) (hu : Utf8 u) : ObjOk (accusation c clk u) := by
  refine ⟨utf8_app, hk.1, (⟨by decide +kernel, by decide +kernel⟩ : GType.ofStr GType.ACC_INIT.toStr = GType.ACC_INIT ∧ Utf8 GType.ACC_INIT.toStr), hc.self,
    (fun _ h => by cases h), ⟨?_, Utf8.nil⟩, hk.2, (by decide +kernel : Utf8 (go!"RSA")), hu, Utf8.nil, Utf8.nil⟩
  apply utf8_rsaSig
  unfold CryptoConfig.sign
  split
  · unfold rsaSignMsg
    cases L.rsaSign c.crypto.signSecretKey (L.sha256 (u ++ [] ++ [])) with
    | none => exact Utf8.nil
    | some σ => exact hc.self
  · exact Utf8.nil

/-- What holds at a monitor whose messages are bytes. -/
structure MonInv (dir : Str) (s : BMon) : Prop where
  stores : StoresInv ObjOk s.m
  queries : ∀ x ∈ s.m.queries, x.1 ∈ c.urls
  waits : ∀ x ∈ s.m.waits, x.1 ∈ c.urls
  sent : ∀ g ∈ s.m.sent, ObjOk g
  files : ∀ p u, s.m.files.get p = some u → UpdOk u
  disk : ∀ p, s.disk.get (updatePath dir p) = (s.m.files.get p).map fileText

theorem monInv_init (dir : Str) : MonInv c dir .init where
  stores := storesInv_init _
  queries := by simp [BMon.init, initMonitor]
  waits := by simp [BMon.init, initMonitor]
  sent := by simp [BMon.init, initMonitor]
  files p u h := by simp [BMon.init, initMonitor, GoMap.get_empty] at h
  disk p := by simp [BMon.init, initMonitor, GoMap.get_empty]

theorem UpdOk.generated (hc : MonText c) {s : MonState} (h : StoresInv ObjOk s) {clk : Clock} (hk : ClockOk clk) :
    UpdOk (generateUpdate c clk s) where
  sths g hg := by obtain ⟨k, hk⟩ := (GoMap.mem_values_iff _ _).1 hg; exact (h.sth k g hk).2.1
  revs g hg := by obtain ⟨k, hk⟩ := (GoMap.mem_values_iff _ _).1 hg; exact (h.rev k g hk).2.1
  pomCONs g hg := by obtain ⟨k, hk⟩ := (GoMap.mem_values_iff _ _).1 hg; exact (h.conD k g hk).2.1
  pomACCs g hg := by obtain ⟨k, hk⟩ := (GoMap.mem_values_iff _ _).1 hg; exact (h.accD k g hk).2.1
  monitorID := hc.self
  period := hk.1

theorem store_files (s : MonState) (g : GossipObj) : (storeObject X s g).files = s.files ∧ (storeObject X s g).sent = s.sent := by
  unfold storeObject
  cases g.type <;> exact ⟨rfl, rfl⟩

theorem files_step {s s' : MonState} {e : MonEvent} (h : monStep X c s e = some s') :
    (∃ clk, e = .finish clk ∧
      s'.files = s.files.set (periodIO c clk) (generateUpdate c clk (Mon.wipeStorage clk (cleanConflicting s)))) ∨
    (∀ clk, e ≠ .finish clk) ∧ s'.files = s.files := by
  by_cases hf : ∃ clk, e = .finish clk
  · obtain ⟨clk, rfl⟩ := hf
    cases h
    exact .inl ⟨clk, rfl, rfl⟩
  · refine .inr ⟨fun clk he => hf ⟨clk, he⟩, ?_⟩
    rcases mon_cases X c h with ⟨clk, he, rfl⟩ | ⟨q, w, t, rfl⟩ | ⟨q, w, o, hd, rfl⟩ | ⟨q, w, o, _, rfl⟩ | ⟨i, k, d, _, _, rfl⟩
    · exact absurd ⟨clk, he⟩ hf
    · rfl
    · exact (store_files X _ o).1
    · rfl
    · unfold fireCRV; split <;> rfl

theorem finish_read {e : BMonEvent} {clk : Clock} (h : e.read = .finish clk) : e = .finish clk := by
  cases e with
  | finish k => cases h; rfl
  | answer i b => cases b <;> cases h
  | _ => cases h

theorem finish_clock {e : BMonEvent} {clk : Clock} (h : e.read = .finish clk) : e.clock = some clk := by
  rw [finish_read h]; rfl

theorem MonInv.step (hc : MonText c) {dir : Str} {s s' : BMon} {e : BMonEvent} (h : MonInv c dir s)
    (hk : ∀ clk, e.clock = some clk → ClockOk clk) (hs : bmonStep X c dir s e = some s') : MonInv c dir s' := by
  unfold bmonStep at hs
  split at hs
  · cases hs
  · rename_i m hm
    cases hs
    have hst : StoresInv ObjOk m := storesInv_stepD X c ObjOk h.stores (fun g hg => read_delivers (.inl hg))
      (fun g i hg _ => read_delivers (.inr ⟨i, hg⟩)) hm
    have hqw := queries_step X c hm h.queries h.waits
    refine ⟨hst, hqw.1, hqw.2, ?_, ?_, ?_⟩
    · rcases mon_cases X c hm with ⟨clk, _, rfl⟩ | ⟨q, w, t, rfl⟩ | ⟨q, w, g, hd, rfl⟩ | ⟨q, w, g, hw, rfl⟩ | ⟨i, k, d, _, _, rfl⟩
      · exact h.sent
      · exact h.sent
      · intro x hx; rw [(store_files X _ g).2] at hx; exact h.sent x hx
      · intro x hx
        simp only [send, reTime, List.mem_append, List.mem_singleton] at hx
        rcases hx with hx | rfl
        · exact h.sent x hx
        · cases hw with
          | forwarded i u k he => exact read_delivers (.inr ⟨i, he⟩)
          | accused i clk u k he hw hg =>
            rw [hg]
            refine accusation_ok c hc ?_ (hc.urls u (h.waits _ (List.mem_of_getElem? hw)))
            cases e with
            | wait j clk' => cases he; exact hk _ rfl
            | answer j b => cases b <;> cases he
            | _ => cases he
      · unfold fireCRV; split <;> exact h.sent
    · intro p u hu
      rcases files_step X c hm with ⟨clk, he, hf⟩ | ⟨_, hf⟩
      · rw [hf] at hu
        rcases get_set_cases hu with ⟨_, rfl⟩ | hu
        · refine UpdOk.generated c hc ?_ (hk clk (finish_clock he))
          have := storesInv_stepD X c ObjOk (e := .finish clk) h.stores (fun g hg => by cases hg) (fun g i hg _ => by cases hg) rfl
          exact ⟨this.temp, this.con, this.conD, this.acc, this.accD, this.sth, this.rev⟩
        · exact h.files p u hu
      · rw [hf] at hu
        exact h.files p u hu
    · intro p
      rcases files_step X c hm with ⟨clk, he, hf⟩ | ⟨hn, hf⟩
      · have he' := finish_read he
        subst he'
        rw [hf]
        by_cases hp : p = periodIO c clk
        · subst hp; simp only [GoMap.get_set_self, Option.map_some]
        · rw [GoMap.get_set_ne _ _ hp]
          simp only
          rw [GoMap.get_set_ne _ _ fun e => hp (updatePath_inj e)]
          exact h.disk p
      · rw [hf]
        cases e with
        | finish clk => exact absurd rfl (hn clk)
        | _ => exact h.disk p

theorem MonInv.run (hc : MonText c) {dir : Str} (h : List BMonEvent) {s s' : BMon} (hi : MonInv c dir s)
    (hk : ∀ e ∈ h, ∀ clk, e.clock = some clk → ClockOk clk) (hs : bmonRun X c dir s h = some s') : MonInv c dir s' := by
  induction h generalizing s with
  | nil => cases hs; exact hi
  | cons e t ih =>
    simp only [bmonRun] at hs
    split at hs
    · cases hs
    · rename_i s1 h1
      exact ih (hi.step X c hc (hk e (by simp)) h1) (fun e' he => hk e' (by simp [he])) hs

theorem sent_types (evs : List MonEvent) {s : MonState} (h : monRun X c initMonitor evs = some s) (g : GossipObj) (hg : g ∈ s.sent) :
    g.type = .STH_INIT ∨ g.type = .REV_INIT ∨ g.type = .ACC_INIT := by
  refine monRun_induct X c (fun s => ∀ g ∈ s.sent, g.type = .STH_INIT ∨ g.type = .REV_INIT ∨ g.type = .ACC_INIT) ?_ evs h
    (by simp [initMonitor]) g hg
  intro s e s' hp hs x hx
  rcases mon_cases X c hs with ⟨clk, _, rfl⟩ | ⟨q, w, t, rfl⟩ | ⟨q, w, g, hd, rfl⟩ | ⟨q, w, g, hw, rfl⟩ | ⟨i, k, d, _, _, rfl⟩
  · exact hp x hx
  · exact hp x hx
  · rw [(store_files X _ g).2] at hx; exact hp x hx
  · simp only [send, reTime, List.mem_append, List.mem_singleton] at hx
    rcases hx with hx | rfl
    · exact hp x hx
    · cases hw with
      | forwarded i u k he hq hv hk => rcases hk with hk | hk <;> simp [hk.1]
      | accused i clk u k he hw hg => rw [hg]; exact .inr (.inr rfl)
  · unfold fireCRV at hx; split at hx <;> exact hp x hx

theorem numOk_str (s : Str) : NumOk (.str s) := trivial

/-- The bytes do the same as the objects they decode to. -/
theorem bmonRun_read {dir : Str} (h : List BMonEvent) (s : BMon) :
    (bmonRun X c dir s h).map BMon.m = monRun X c s.m (h.map BMonEvent.read) := by
  induction h generalizing s with
  | nil => rfl
  | cons e t ih =>
    simp only [bmonRun, monRun, List.map_cons]
    unfold bmonStep
    cases hm : monStep X c s.m e.read with
    | none => rfl
    | some m => exact ih _

end Wire
end CTng
