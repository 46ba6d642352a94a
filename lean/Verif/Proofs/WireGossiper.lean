import Verif.Proofs.Utf8
import Verif.Proofs.GossiperObjs
/- Everything a gossiper stores and sends survives its JSON form. -/
set_option autoImplicit false

namespace CTng
namespace Wire
open Json

theorem runes_ascii {s : Str} (h : ∀ c ∈ s, c < 128) : Runes s := by
  induction s with
  | nil => exact .nil
  | cons c t ih =>
    exact Runes.cons [c] t (runeBytes_ascii c (h c (by simp))) (ih fun x hx => h x (by simp [hx]))

theorem escByte_ascii (c : UInt8) (h : c < 128) : ∀ x ∈ escByte c, x < 128 := by
  have : ∀ n : Fin 128, (escByte (UInt8.ofNat n.val)).all (· < 128) = true := by decide +kernel
  have h1 := this ⟨c.toNat, h⟩
  rw [show UInt8.ofNat (⟨c.toNat, h⟩ : Fin 128).val = c from UInt8.ofNat_toNat] at h1
  intro x hx
  have := List.all_eq_true.1 h1 x hx
  simpa using this

theorem runes_quoteN (n : Nat) : ∀ s : Str, Runes (quoteN n s) := by
  induction n with
  | zero => intro s; exact .nil
  | succ n ih =>
    intro s
    cases s with
    | nil => exact .nil
    | cons c t =>
      rw [quoteN]
      split
      · rename_i hc
        exact (runes_ascii (escByte_ascii c hc)).append (ih t)
      · split
        · exact (runes_ascii (by decide +kernel)).append (ih t)
        · rename_i k hk
          refine Runes.append ?_ (ih _)
          split
          · exact runes_ascii (by decide +kernel)
          · split
            · exact runes_ascii (by decide +kernel)
            · exact .one (runeBytes_front c t k hk)

theorem utf8_quote (s : Str) : Utf8 (quote s) :=
  (utf8_iff _).2 (Runes.cons [34] _ (runeBytes_ascii 34 (by decide)) ((runes_quoteN _ s).append
    (runes_ascii (by decide))))

theorem utf8_renderStrs (l : List Str) : Utf8 (renderElems (l.map .str)) := by
  induction l with
  | nil => exact Utf8.nil
  | cons a t ih =>
    cases t with
    | nil => simpa [renderElems, render] using utf8_quote a
    | cons b t =>
      have : renderElems ((a :: b :: t).map Json.str) = quote a ++ ([44] ++ renderElems ((b :: t).map Json.str)) := by
        simp [renderElems, render]
      rw [this]
      exact (utf8_quote a).append (Utf8.append (a := [44]) rfl ih)

theorem utf8_strList (l : List Str) : Utf8 (render (.arr (l.map .str))) := by
  have : render (.arr (l.map .str)) = [91] ++ (renderElems (l.map .str) ++ [93]) := by simp [render]
  rw [this]
  exact Utf8.append (a := [91]) rfl ((utf8_renderStrs l).append rfl)

theorem utf8_safe {s : Str} (h : Safe s) : Utf8 s := Utf8.of_ascii fun c hc => by
  have := h c hc
  simp only [safeChar, Bool.and_eq_true, decide_eq_true_eq] at this
  exact UInt8.lt_trans this.1.1.2 (by decide)

theorem utf8_cat {p : Pay3} (h : Utf8 p.p0 ∧ Utf8 p.p1 ∧ Utf8 p.p2) : Utf8 p.cat := (h.1.append h.2.1).append h.2.2

/-- Clock readings are text. -/
def ClockOk (clk : Clock) : Prop := Utf8 clk.period ∧ Utf8 clk.timestamp

instance (s : Str) : Decidable (Utf8 s) := inferInstanceAs (Decidable (sanitize s = s))

variable {L : Lib}

theorem typeOk_full {t : GType} (h : t.isFull = true) : GType.ofStr t.toStr = t ∧ Utf8 t.toStr := by
  cases t <;> first | (cases h; done) | exact ⟨by decide +kernel, by decide +kernel⟩

theorem utf8_app : Utf8 CTNG_APPLICATION := by decide +kernel
theorem utf8_bls : Utf8 (go!"bls") := by decide +kernel

theorem utf8_signed (mid post : Str) {σ rest : Str} (h1 : Utf8 σ) (h2 : Utf8 rest) (hm : Utf8 mid) (hp : Utf8 post) :
    Utf8 (go!"{\"sign\":\"" ++ σ ++ mid ++ rest ++ post) :=
  ((((by decide +kernel : Utf8 (go!"{\"sign\":\"")).append h1).append hm).append h2).append hp

theorem typeOk_frag (t t' : GType)
    (e : t' = match t with
        | .STH_INIT => .STH_FRAG
        | .REV_INIT => .REV_FRAG
        | .ACC_INIT => .ACC_FRAG
        | t => t) (h : GType.ofStr t.toStr = t ∧ Utf8 t.toStr) : GType.ofStr t'.toStr = t' ∧ Utf8 t'.toStr := by
  cases t <;> first | (subst e; exact h) | (subst e; exact ⟨by decide +kernel, by decide +kernel⟩)

/-- What a gossiper builds from objects that survive their JSON form survives it too. -/
theorem objClosed (cf : GConf L.withJson) (hid : Utf8 cf.crypto.selfID) (hser : ∀ s, Safe (L.blsSerHex s)) :
    ObjClosed cf ObjOk NotifOk ClockOk where
  zero := objOk_zero
  payload g o _ hg ho := { hg with payload := ho.payload }
  remove g _ hg := { hg with payload := ⟨hg.payload.1, Utf8.nil, Utf8.nil⟩ }
  con clk o1 o2 hk h1 h2 :=
    ⟨utf8_app, hk.1, (⟨by decide +kernel, by decide +kernel⟩ : GType.ofStr GType.CON_INIT.toStr = GType.CON_INIT ∧ Utf8 GType.CON_INIT.toStr),
      Utf8.nil, (fun _ h => by cases h), ⟨h1.sig.1, h2.sig.1⟩, hk.2, Utf8.nil,
      ⟨h1.payload.1, utf8_cat h1.payload, utf8_cat h2.payload⟩⟩
  frag g f hg hf := by
    unfold generateFRAG at hf
    split at hf
    · cases hf
    · rename_i str hs
      cases hf
      have hstr : Utf8 str := by
        unfold CryptoConfig.thresholdSign at hs
        split at hs
        · simp only [SigFragment.toStr, Option.map_some, Option.some.injEq] at hs
          rw [← hs]
          exact utf8_signed _ _ (utf8_safe (hser _)) hid (by decide +kernel) (by decide +kernel)
        · simp [SigFragment.toStr] at hs
      exact ⟨hg.application, hg.period, typeOk_frag _ _ rfl hg.type, hid, hg.signers, ⟨hstr, hg.sig.2⟩, hg.timestamp, utf8_bls, hg.payload⟩
  full clk gs t o hk hgs ht ho := by
    unfold generateFULL at ho
    split at ho
    · cases ho
    · cases ho
    · rename_i ts hagg
      split at ho
      · rename_i str g0 rest hstr
        cases ho
        refine ⟨utf8_app, hk.1, typeOk_full ht, Utf8.nil, ?_, ⟨?_, Utf8.nil⟩, hk.2, utf8_bls, ?_⟩
        · intro s hs
          obtain ⟨g, hg, rfl⟩ := List.mem_map.1 hs
          exact (hgs g hg).1.signer
        · cases hsig : ts.sign with
          | none => simp [ThresholdSig.toStr, hsig] at hstr
          | some σ =>
            simp only [ThresholdSig.toStr, hsig, Option.map_some, Option.some.injEq] at hstr
            rw [← hstr]
            exact utf8_signed _ _ (utf8_safe (hser _)) (utf8_strList _) (by decide +kernel) (by decide +kernel)
        · exact (hgs g0 (by simp)).1.payload
      · cases ho
  notif g hg := ⟨hid, hg.period, hg.type, hg.payload.1⟩
  ask x hx := { hx with sender := hid }

end Wire
end CTng
