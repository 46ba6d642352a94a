import Verif.Proofs.NetworkOwn
import Verif.Props.GossiperMisc
/- C93 (fragments after the FULL object), C94 (convergence times). -/
set_option autoImplicit false

namespace CTng
variable {L : Lib}

/-! ### C93 -/

/-- C93 fails: a new fragment about an entity that is not blacklisted, with fewer than Threshold - 1 fragments held for
its statement, is kept and passed on to every connected gossiper, whatever FULL objects are held. (The code looks the
FULL object up under the fragment's own type, where it never is.) -/
theorem C93_violated_fragment_always_kept (cf : GConf L) (s : GState) (hs : GReach cf s) (g : GossipObj)
    (ht : g.type = .STH_FRAG ∨ g.type = .ACC_FRAG) (hb : s.blacklist.has g.payload.p0 = false) (l : List GossipObj)
    (hl : FragsAt s.storage g.getID l g.type ∨ (l = [] ∧ ∀ l', ¬ FragsAt s.storage g.getID l' g.type))
    (few : (l.length : Int) + 1 < cf.crypto.threshold) (new : ∀ f ∈ l, f.sig ≠ g.sig) (clk : Clock) (n : Int) :
    let s' := (gossipObjectHandler cf clk n s g).1
    FragsAt s'.storage g.getID (l ++ [g]) g.type ∧
      s'.out = s.out ++ cf.connected.map fun u => .peer u (endpointOf g.type) (.obj g) := by
  intro s'
  have hf : g.type.isFrag = true := by rcases ht with h | h <;> simp [h, GType.isFrag]
  have hnr : g.type ≠ .REV_FRAG ∧ g.type ≠ .REV_INIT := by rcases ht with h | h <;> simp [h]
  have hlist : s.storage.fragList g.type g.getID = l := by
    rcases hl with h | ⟨rfl, h⟩
    · exact h.fragList
    · unfold Storage.fragList
      cases e : (s.storage.frags g.type).get g.getID with
      | none => rfl
      | some l' => exact absurd (fragsAt_iff.2 e) (h l')
  have hs' : s' = (gossipObjectHandler cf clk n s g).1 := rfl
  clear_value s'
  rw [recv_eq cf clk n s g (fun x => hnr.1 x.2), if_neg (fun x => hnr.2 x.2)] at hs'
  have hd : dupCheck { s with trafficReceived := s.trafficReceived + n } g = false := by
    cases hd : dupCheck { s with trafficReceived := s.trafficReceived + n } g with
    | false => rfl
    | true =>
      obtain ⟨v, hv, e⟩ := (dupCheck_frag hf).1 hd
      exact absurd e (new v (by rw [← hlist]; exact hv))
  have hfew : ((s.storage.fragList g.type g.getID).length : Int) + 1 < cf.crypto.threshold := by rw [hlist]; exact few
  rw [handle_frag_below cf clk { s with trafficReceived := s.trafficReceived + n } g (hs.storageInv cf) hf hd hb hfew] at hs'
  subst hs'
  constructor
  · rw [fragsAt_iff]
    simp only [storage_sendToGossipers]
    rcases ht with h | h <;> rw [h] at hlist ⊢ <;> simp [Storage.appendFrag, Storage.frags, hlist]
  · unfold sendToGossipers
    rw [if_neg (fun x => hnr.2 x.2)]
    simp only [hnr.1, and_false, if_false]

/-- What holds of C93: once Threshold fragments are held for a statement, a further fragment about it changes nothing but
the count of received bytes, and nothing is sent. Missing: the same once only the FULL object is held. -/
theorem C93_fragment_ignored_at_threshold_partial (cf : GConf L) (s : GState) (g : GossipObj)
    (ht : g.type = .STH_FRAG ∨ g.type = .ACC_FRAG ∨ (g.type = .REV_FRAG ∧ cf.optMode = false)) (l : List GossipObj)
    (hl : FragsAt s.storage g.getID l g.type) (many : cf.crypto.threshold ≤ (l.length : Int)) (clk : Clock) (n : Int) :
    gossipObjectHandler cf clk n s g = ({ s with trafficReceived := s.trafficReceived + n }, false) := by
  have hf : g.type.isFrag = true := by rcases ht with h | h | h <;> simp [h, GType.isFrag]
  have hni : g.type ≠ .REV_INIT := by rcases ht with h | h | h <;> simp [h]
  have hno : ¬ (cf.optMode = true ∧ g.type = .REV_FRAG) := by rcases ht with h | h | h <;> simp [h]
  rw [recv_eq cf clk n s g hno, if_neg (fun x => hni x.2)]
  have hlist := hl.fragList
  rw [handle_frag cf clk hf]
  split
  · rfl
  · split
    · rfl
    · unfold handleFrag
      split
      · rfl
      · rw [readAndStore_frag cf hf]
        have h1 : ¬ ((l.length : Int) < cf.crypto.threshold) := by omega
        have h2 : ¬ ((l.length : Int) = cf.crypto.threshold - 1) := by omega
        simp [hlist, h1, h2]

/-- The FULL object for L1 arrives from outside; then fragments. -/
example : ∃ s f, GReach Ref.gconf s ∧ HeldAs s.storage ⟨go!"05", .STH_FULL, go!"L1"⟩ f .STH_FULL ∧
    (∀ l', ¬ FragsAt s.storage (Ref.frag (go!"G2")).getID l' .STH_FRAG) ∧ s.blacklist.has (go!"L1") = false ∧
    (([] : List GossipObj).length : Int) + 1 < Ref.gconf.crypto.threshold := by
  refine ⟨grun Ref.gconf GState.init [(Ref.clk, .recv 10 (Ref.fullOf (go!"G1") (go!"G2")))],
    Ref.fullOf (go!"G1") (go!"G2"), ⟨_, rfl⟩, .sthFull (by decide +kernel), ?_, by decide +kernel, by decide +kernel⟩
  intro l' h
  rw [fragsAt_iff] at h
  exact absurd h (by
    rw [show (grun Ref.gconf GState.init [(Ref.clk, GOp.recv 10 (Ref.fullOf (go!"G1") (go!"G2")))]).storage.frags .STH_FRAG
      = .empty from by decide +kernel]
    simp)

example : FragsAt (grun Ref.gconf GState.init Ref.haveFull).storage (Ref.frag (go!"G1")).getID
    [Ref.frag (go!"G2"), Ref.frag (go!"G3")] (Ref.frag (go!"G1")).type ∧ Ref.gconf.crypto.threshold ≤ 2 :=
  ⟨.sth (by decide +kernel), by decide⟩

/-! ### C94 -/

/-- The gossiper holds an outcome about `x`, of type `t` under the key `k`: a FULL object or a conflict proof. -/
def Outcome (s : Storage) (x : Str) (t : GType) (k : GossipID) : Prop :=
  (t = .STH_FULL ∨ t = .REV_FULL ∨ t = .ACC_FULL ∨ t = .CON_INIT) ∧ ∃ o, HeldAs s k o t ∧ o.payload.p0 = x

/-- The gossiper holds a statement by, or an accusation of, `x`. -/
def Seen (s : Storage) (x : Str) (t : GType) (k : GossipID) : Prop :=
  (t = .STH_INIT ∨ t = .REV_INIT ∨ t = .ACC_INIT) ∧ ∃ o, HeldAs s k o t ∧ o.payload.p0 = x

/-- Every object counted is about a different one of the entities `ents`. -/
def OneEach (ents : List Str) (P : Str → GType → GossipID → Prop) : Prop :=
  (∀ x t k, P x t k → x ∈ ents) ∧ ∀ x t k t' k', P x t k → P x t' k' → t = t' ∧ k = k'

section
variable (cf : GConf L) (clk : Clock) (s : GState) (g : GossipObj)

@[simp] theorem convergeTime_sendToGossipers : (sendToGossipers cf s g).convergeTime = s.convergeTime := by
  unfold sendToGossipers; simp only; split <;> rfl
@[simp] theorem convergeTimeInit_sendToGossipers : (sendToGossipers cf s g).convergeTimeInit = s.convergeTimeInit := by
  unfold sendToGossipers; simp only; split <;> rfl
@[simp] theorem convergeTime_storedState : (storedState cf clk s g).convergeTime = s.convergeTime := by
  unfold storedState storeNote noteInitConverge storeBlacklist addBlacklist
  cases g.type <;> simp only <;> (repeat' split) <;> rfl

theorem isConvergent_congr {s s' : GState} (h : ∀ t, t = .STH_FULL ∨ t = .REV_FULL ∨ t = .ACC_FULL ∨ t = .CON_INIT →
    s'.storage.objs t = s.storage.objs t) : isConvergent cf s' = isConvergent cf s := by
  unfold isConvergent
  have h1 := h .STH_FULL (by simp)
  have h2 := h .REV_FULL (by simp)
  have h3 := h .ACC_FULL (by simp)
  have h4 := h .CON_INIT (by simp)
  simp only [Storage.objs] at h1 h2 h3 h4
  rw [h1, h2, h3, h4]

theorem isInitConvergent_congr {s s' : GState} (h : ∀ t, t = .STH_INIT ∨ t = .REV_INIT ∨ t = .ACC_INIT →
    s'.storage.objs t = s.storage.objs t) : isInitConvergent cf s' = isInitConvergent cf s := by
  unfold isInitConvergent
  have h1 := h .STH_INIT (by simp)
  have h2 := h .REV_INIT (by simp)
  have h3 := h .ACC_INIT (by simp)
  simp only [Storage.objs] at h1 h2 h3
  rw [h1, h2, h3]

theorem convergeTimeInit_storedState :
    (storedState cf clk s g).convergeTimeInit = s.convergeTimeInit ∨
    ((storedState cf clk s g).convergeTimeInit = clk.second ∧ isInitConvergent cf (storedState cf clk s g) = true) := by
  have key : ∀ s1 : GState, s1.convergeTimeInit = s.convergeTimeInit →
      (noteInitConverge cf clk s1).convergeTimeInit = s.convergeTimeInit ∨
      ((noteInitConverge cf clk s1).convergeTimeInit = clk.second ∧ isInitConvergent cf (noteInitConverge cf clk s1) = true) := by
    intro s1 h
    unfold noteInitConverge
    split
    · rename_i hc; exact .inr ⟨rfl, hc⟩
    · exact .inl h
  have h0 : (storeBlacklist { s with timerlist := s.timerlist ++ [clk.second], storage := s.storage.putObj g.type g.getID g } g).convergeTimeInit
      = s.convergeTimeInit := by
    unfold storeBlacklist addBlacklist
    cases g.type <;> simp only <;> (repeat' split) <;> rfl
  unfold storedState storeNote
  split
  · exact key _ h0
  · exact key _ h0
  · exact key _ h0
  · exact key _ h0
  · exact .inl h0

end

/-- What a change of the recorded times means. -/
structure Timely (cf : GConf L) (clk : Clock) (s s' : GState) : Prop where
  full : s'.convergeTime = s.convergeTime ∨ (s'.convergeTime = clk.second ∧ isConvergent cf s' = true)
  init : s'.convergeTimeInit = s.convergeTimeInit ∨ (s'.convergeTimeInit = clk.second ∧ isInitConvergent cf s' = true)

section
variable {cf : GConf L} {clk : Clock}

theorem Timely.refl (s : GState) : Timely cf clk s s := ⟨.inl rfl, .inl rfl⟩

theorem Timely.congr {s s1 s' s1' : GState} (h : Timely cf clk s s') (e1 : s1.convergeTime = s.convergeTime)
    (e2 : s1.convergeTimeInit = s.convergeTimeInit) (e3 : s1'.convergeTime = s'.convergeTime)
    (e4 : s1'.convergeTimeInit = s'.convergeTimeInit) (e5 : ∀ t, s1'.storage.objs t = s'.storage.objs t) :
    Timely cf clk s1 s1' :=
  ⟨by rw [e1, e3, isConvergent_congr cf (fun t _ => e5 t)]; exact h.full,
   by rw [e2, e4, isInitConvergent_congr cf (fun t _ => e5 t)]; exact h.init⟩

theorem timely_full (s : GState) (g : GossipObj) (hg : g.type.isFull = true) : Timely cf clk s (handle cf clk s g).1 := by
  have note : ∀ s1 : GState, s1.convergeTime = s.convergeTime → s1.convergeTimeInit = s.convergeTimeInit →
      Timely cf clk s (noteConverge cf clk s1) := by
    intro s1 h1 h2
    unfold noteConverge
    split
    · rename_i hc; exact ⟨.inr ⟨rfl, hc⟩, .inl h2⟩
    · exact ⟨.inl h1, .inl h2⟩
  rcases handle_full_cases cf clk s g hg with e | e | ⟨_, e⟩ | ⟨_, _, _, e⟩ <;> rw [e]
  · exact .refl s
  · exact note s rfl rfl
  · exact note _ rfl rfl
  · refine note _ (by simp [sendToMonitor, GState.emit]) ?_
    have : g.type ≠ .STH_INIT ∧ g.type ≠ .REV_INIT ∧ g.type ≠ .ACC_INIT ∧ g.type ≠ .CON_INIT := by
      refine ⟨?_, ?_, ?_, ?_⟩ <;> intro h <;> simp [h, GType.isFull] at hg
    simp only [sendToMonitor, GState.emit]
    unfold storedState storeNote storeBlacklist addBlacklist
    cases h : g.type <;> simp_all <;> (repeat' split) <;> rfl

theorem timely_frag (s : GState) (g : GossipObj) (hg : g.type.isFrag = true) : Timely cf clk s (handle cf clk s g).1 := by
  have h := handle_frag_res cf clk s g hg
  generalize (handle cf clk s g).1 = s' at h
  cases h with
  | skip => exact .refl s
  | low => exact ⟨.inl (by simp), .inl (by simp)⟩
  | panic => exact ⟨.inl rfl, .inl rfl⟩
  | gen o s2 b _ _ _ hgen hh =>
    have hof : o.type.isFull = true := by rw [generateFULL_type hgen]; exact getTargetType_isFull hg
    have := timely_full (cf := cf) (clk := clk)
      (({ s with storage := s.storage.appendFrag g.type g.getID g } : GState).emit [.generatedFull g.getID o]) o hof
    rw [hh] at this
    cases b
    · exact this.congr rfl rfl (by simp) (by simp) (by simp)
    · exact this.congr rfl rfl rfl rfl (fun _ => rfl)

theorem timely_signed {s s1 : GState} (h : Timely cf clk s s1) (hct : s1.convergeTime = s.convergeTime) (f : GossipObj)
    (hf : f.type.isFrag = true) (s2 : GState) (e1 : s2.convergeTime = s1.convergeTime)
    (e2 : s2.convergeTimeInit = s1.convergeTimeInit) (e3 : s2.storage = s1.storage) :
    Timely cf clk s (handle cf clk s2 f).1 := by
  have h2 := timely_frag (cf := cf) (clk := clk) s2 f hf
  constructor
  · rcases h2.full with h3 | h3
    · exact .inl (by rw [h3, e1, hct])
    · exact .inr h3
  · rcases h2.init with h3 | h3
    · rw [h3, e2, isInitConvergent_congr cf (s := s1) (fun t ht => by
        rw [objs_handle_frag cf clk s2 f hf t (by rcases ht with rfl | rfl | rfl <;> rfl), e3])]
      exact h.init
    · exact .inr h3

theorem timely_con (s : GState) (g : GossipObj) (hg : g.type = .CON_INIT) : Timely cf clk s (handle cf clk s g).1 := by
  rcases handle_con_cases cf clk s g hg with e | ⟨_, _, _, e⟩ <;> rw [e]
  · exact .refl s
  · refine Timely.congr (s := s) (s' := storedState cf clk s g) ⟨.inl (by simp), convergeTimeInit_storedState cf clk s g⟩
      rfl rfl (by simp [sendToMonitor, GState.emit]) (by simp [sendToMonitor, GState.emit]) (by simp)

theorem timely_handle (s : GState) (g : GossipObj) : Timely cf clk s (handle cf clk s g).1 := by
  have sthrev : g.type = .STH_INIT ∨ g.type = .REV_INIT → Timely cf clk s (handle cf clk s g).1 := by
    intro ht
    rcases handle_sthrev_cases cf clk s g ht with e | ⟨_, e⟩ | ⟨_, _, _, _, e⟩ <;> rw [e]
    · exact .refl s
    · exact timely_con s _ rfl
    · refine Timely.congr (s := s) (s' := storedState cf clk s g) ⟨.inl (by simp), convergeTimeInit_storedState cf clk s g⟩
        rfl rfl (by simp [sendToMonitor, GState.emit]) (by simp [sendToMonitor, GState.emit]) (by simp)
  cases ht : g.type with
  | STH_INIT => exact sthrev (.inl ht)
  | REV_INIT => exact sthrev (.inr ht)
  | ACC_INIT =>
    rw [handle_acc cf clk ht]
    split
    · exact .refl s
    · rename_i hd
      split
      · exact .refl s
      · unfold handleAcc
        split
        · exact .refl s
        · split
          · exact .refl s
          · have hst : Timely cf clk s (storedState cf clk s g) := ⟨.inl (by simp), convergeTimeInit_storedState cf clk s g⟩
            rcases storeGossipObject_cases cf clk s g (by rw [ht]; rfl) (by simpa using hd) with ⟨_, e⟩ | ⟨_, e⟩ | ⟨hv, e⟩ <;>
              simp only [e]
            · exact .refl s
            · exact .refl s
            · split
              · exact hst
              · unfold signStatement
                cases hf : generateFRAG cf g with
                | none => exact hst
                | some f =>
                  have hft : f.type.isFrag = true := by rw [generateFRAG_type hf, ht]; rfl
                  exact timely_signed hst (by simp) f hft _ rfl rfl rfl
  | CON_INIT => exact timely_con s g ht
  | STH_FRAG => exact timely_frag s g (by rw [ht]; rfl)
  | REV_FRAG => exact timely_frag s g (by rw [ht]; rfl)
  | ACC_FRAG => exact timely_frag s g (by rw [ht]; rfl)
  | STH_FULL => exact timely_full s g (by rw [ht]; rfl)
  | REV_FULL => exact timely_full s g (by rw [ht]; rfl)
  | ACC_FULL => exact timely_full s g (by rw [ht]; rfl)
  | other x => rw [handle_other cf clk (by rw [ht]; rfl)]; exact .refl s

theorem timely_step (s : GState) (hs : GReach cf s) (clk : Clock) (op : GOp) :
    Timely cf clk s (gstep cf s (clk, op)) := by
  unfold gstep
  split
  · exact .refl s
  · cases op with
    | recv n o =>
      have : ∀ s0 : GState, s0.convergeTime = s.convergeTime → s0.convergeTimeInit = s.convergeTimeInit → ∀ o,
          Timely cf clk s (handle cf clk s0 o).1 :=
        fun s0 h1 h2 o => (timely_handle s0 o).congr h1.symm h2.symm rfl rfl (fun _ => rfl)
      simp only [gossipObjectHandler]
      split <;> rename_i h
      · split at h
        · unfold savePayload at h
          split at h <;> cases h
          exact ⟨.inl rfl, .inl rfl⟩
        · cases h
      · split at h
        · unfold savePayload at h
          split at h <;> cases h
          · refine this _ ?_ ?_ _ <;> rfl
          · refine this _ ?_ ?_ _ <;> rfl
        · cases h; refine this _ ?_ ?_ _ <;> rfl
    | notify n x => simp only [notificationHandler]; split <;> exact ⟨.inl rfl, .inl rfl⟩
    | request n x => simp only [requestHandler]; split <;> exact ⟨.inl rfl, .inl rfl⟩
    | periodic =>
      simp only [periodicTask, wipeStorage, save]
      split <;> exact ⟨.inl rfl, .inl rfl⟩
    | fire i =>
      simp only
      cases ht : s.timers[i]? with
      | none => exact .refl s
      | some o =>
        simp only
        have key : Timely cf clk s (timerFire cf clk { s with timers := s.timers.eraseIdx i } o).1 := by
          unfold timerFire
          split
          · exact ⟨.inl rfl, .inl rfl⟩
          · unfold signStatement
            cases hf : generateFRAG cf o with
            | none => exact ⟨.inl rfl, .inl rfl⟩
            | some f =>
              have hft : f.type.isFrag = true := by
                rw [generateFRAG_type hf]
                rcases hs.timers cf o (List.mem_of_getElem? ht) with h | h <;> rw [h] <;> rfl
              exact timely_signed (.refl s) rfl f hft _ rfl rfl rfl
        rcases hr : timerFire cf clk { s with timers := s.timers.eraseIdx i } o with ⟨s', b⟩
        rw [hr] at key
        cases b
        · exact key
        · exact ⟨key.full, key.init⟩

end

/-- Injective into a list of the same length: onto. -/
theorem surj_of_length {A B : Type} [DecidableEq B] (l : List A) (f : A → B) (ents : List B) (hn : l.Nodup)
    (hin : ∀ a ∈ l, f a ∈ ents) (hinj : ∀ a ∈ l, ∀ b ∈ l, f a = f b → a = b) (hlen : ents.length ≤ l.length) :
    ∀ x ∈ ents, ∃ a ∈ l, f a = x := by
  induction l generalizing ents with
  | nil =>
    intro x hx
    have := List.length_pos_of_mem hx
    simp at hlen
    subst hlen
    simp at this
  | cons a l ih =>
    intro x hx
    by_cases e : f a = x
    · exact ⟨a, by simp, e⟩
    · have ha := hin a (by simp)
      have hlen' : (ents.erase (f a)).length ≤ l.length := by
        rw [List.length_erase_of_mem ha]
        simp at hlen
        omega
      have hn' := List.nodup_cons.1 hn
      have hin' : ∀ b ∈ l, f b ∈ ents.erase (f a) := by
        intro b hb
        rw [List.mem_erase_of_ne]
        · exact hin b (by simp [hb])
        · intro h
          have := hinj b (by simp [hb]) a (by simp) h
          subst this
          exact hn'.1 hb
      obtain ⟨b, hb, e'⟩ := ih (ents.erase (f a)) hn'.2 hin'
        (fun b hb c hc => hinj b (by simp [hb]) c (by simp [hc])) hlen' x (by rw [List.mem_erase_of_ne (Ne.symm e)]; exact hx)
      exact ⟨b, by simp [hb], e'⟩

/-- All keys of a store, with its type. -/
def typedKeys (s : Storage) (t : GType) : List (GType × GossipID) := (s.objs t).keys.map fun k => (t, k)

theorem mem_typedKeys {s : Storage} {t t' : GType} {k : GossipID} :
    (t', k) ∈ typedKeys s t ↔ t' = t ∧ ∃ o, HeldAs s k o t := by
  unfold typedKeys GoMap.keys
  simp only [List.mem_map, Prod.mk.injEq, heldAs_iff]
  constructor
  · rintro ⟨k', hk, rfl, rfl⟩
    exact ⟨rfl, ((s.objs t).mem_keys_iff k').1 (by simpa using hk)⟩
  · rintro ⟨rfl, h⟩
    exact ⟨k, by simpa using ((s.objs t').mem_keys_iff k).2 h, rfl, rfl⟩

theorem nodup_typedKeys (s : Storage) (t : GType) : (typedKeys s t).Nodup := by
  unfold typedKeys
  exact List.pairwise_map.2 ((s.objs t).nodup.imp fun h e => h (Prod.mk.inj e).2)

theorem length_typedKeys (s : Storage) (t : GType) : (typedKeys s t).length = (s.objs t).len := by
  simp [typedKeys, GoMap.keys, GoMap.len]

theorem all_seen {ents : List Str} {P : Str → GType → GossipID → Prop} (h1 : OneEach ents P)
    (l : List (GType × GossipID)) (hn : l.Nodup) (hl : ∀ t k, (t, k) ∈ l → ∃ x, P x t k) (hlen : ents.length ≤ l.length) :
    ∀ x ∈ ents, ∃ t k, P x t k := by
  have hf : ∃ f : GType × GossipID → Str, ∀ a ∈ l, P (f a) a.1 a.2 := by
    refine ⟨fun a => open Classical in if h : ∃ x, P x a.1 a.2 then Classical.choose h else [], ?_⟩
    intro a ha
    have := hl a.1 a.2 ha
    simp only [this, dif_pos]
    exact Classical.choose_spec this
  obtain ⟨f, hf⟩ := hf
  intro x hx
  obtain ⟨a, ha, e⟩ := surj_of_length l f ents hn (fun a ha => h1.1 _ _ _ (hf a ha))
    (fun a ha b hb e => by
      have ha' := hf a ha
      rw [e] at ha'
      obtain ⟨e1, e2⟩ := h1.2 _ _ _ _ _ ha' (hf b hb)
      exact Prod.ext e1 e2) hlen x hx
  exact ⟨a.1, a.2, by rw [← e]; exact hf a ha⟩

/-- What holds of C94: when an event changes the recorded convergence time, the new value is the second of the clock at
that event, and if every FULL object and conflict proof held is about a different known entity, then the gossiper holds
one about every known entity. Missing: several outcomes about one entity are counted several times, see
`C94_violated_counted_twice`; the time of an earlier period stays in the log, see `C94_violated_stale`. -/
theorem C94_converge_time_partial (cf : GConf L) (ents : List Str) (s : GState) (hs : GReach cf s)
    (hl : (ents.length : Int) = cf.totalLogger + cf.totalCA) (e : Clock × GOp)
    (hch : (gstep cf s e).convergeTime ≠ s.convergeTime) :
    (gstep cf s e).convergeTime = e.1.second ∧
    (OneEach ents (Outcome (gstep cf s e).storage) → ∀ x ∈ ents, ∃ t k, Outcome (gstep cf s e).storage x t k) := by
  obtain ⟨clk, op⟩ := e
  rcases (timely_step s hs clk op).full with h | ⟨h, hc⟩
  · exact absurd h hch
  · refine ⟨h, fun h1 => ?_⟩
    generalize gstep cf s (clk, op) = s' at *
    refine all_seen h1
      (typedKeys s'.storage .STH_FULL ++ typedKeys s'.storage .REV_FULL ++ typedKeys s'.storage .ACC_FULL ++
        typedKeys s'.storage .CON_INIT) ?_ ?_ ?_
    · simp only [List.nodup_append, nodup_typedKeys, true_and]
      refine ⟨⟨?_, ?_⟩, ?_⟩
      · rintro ⟨a1, a2⟩ ha ⟨b1, b2⟩ hb e
        cases e
        cases (mem_typedKeys.1 ha).1.symm.trans (mem_typedKeys.1 hb).1
      · rintro ⟨a1, a2⟩ ha ⟨b1, b2⟩ hb e
        cases e
        have := (mem_typedKeys.1 hb).1
        subst this
        simp [List.mem_append, mem_typedKeys] at ha
      · rintro ⟨a1, a2⟩ ha ⟨b1, b2⟩ hb e
        cases e
        have := (mem_typedKeys.1 hb).1
        subst this
        simp [List.mem_append, mem_typedKeys] at ha
    · intro t k h
      simp only [List.mem_append, mem_typedKeys] at h
      rcases h with ((⟨rfl, o, ho⟩ | ⟨rfl, o, ho⟩) | ⟨rfl, o, ho⟩) | ⟨rfl, o, ho⟩ <;>
        exact ⟨o.payload.p0, by simp, o, ho, rfl⟩
    · simp only [List.length_append, length_typedKeys]
      unfold isConvergent at hc
      simp only [decide_eq_true_eq] at hc
      simp only [Storage.objs]
      omega

/-- The same for the time recorded when all first statements have been seen. -/
theorem C94_init_converge_time_partial (cf : GConf L) (ents : List Str) (s : GState) (hs : GReach cf s)
    (hl : (ents.length : Int) = cf.totalLogger + cf.totalCA) (e : Clock × GOp)
    (hch : (gstep cf s e).convergeTimeInit ≠ s.convergeTimeInit) :
    (gstep cf s e).convergeTimeInit = e.1.second ∧
    (OneEach ents (Seen (gstep cf s e).storage) → ∀ x ∈ ents, ∃ t k, Seen (gstep cf s e).storage x t k) := by
  obtain ⟨clk, op⟩ := e
  rcases (timely_step s hs clk op).init with h | ⟨h, hc⟩
  · exact absurd h hch
  · refine ⟨h, fun h1 => ?_⟩
    generalize gstep cf s (clk, op) = s' at *
    refine all_seen h1
      (typedKeys s'.storage .STH_INIT ++ typedKeys s'.storage .REV_INIT ++ typedKeys s'.storage .ACC_INIT) ?_ ?_ ?_
     
    · simp only [List.nodup_append, nodup_typedKeys, true_and]
      refine ⟨?_, ?_⟩
      · rintro ⟨a1, a2⟩ ha ⟨b1, b2⟩ hb e
        cases e
        cases (mem_typedKeys.1 ha).1.symm.trans (mem_typedKeys.1 hb).1
      · rintro ⟨a1, a2⟩ ha ⟨b1, b2⟩ hb e
        cases e
        have := (mem_typedKeys.1 hb).1
        subst this
        simp [List.mem_append, mem_typedKeys] at ha
    · intro t k h
      simp only [List.mem_append, mem_typedKeys] at h
      rcases h with (⟨rfl, o, ho⟩ | ⟨rfl, o, ho⟩) | ⟨rfl, o, ho⟩ <;>
        exact ⟨o.payload.p0, by simp, o, ho, rfl⟩
    · simp only [List.length_append, length_typedKeys]
      unfold isInitConvergent at hc
      simp only [decide_eq_true_eq] at hc
      simp only [Storage.objs]
      omega

/-- The FULL object about C1 made from the fragments of G2 and G3. -/
def Ref.revFullG : GossipObj :=
  ((grun Ref.gconf GState.init [(Ref.clk, .recv 10 (Ref.revFrag (go!"G2"))), (Ref.clk, .recv 10 (Ref.revFrag (go!"G3")))]).storage.revFull.get
    ⟨go!"05", .REV_FULL, go!"C1"⟩).getD .zero

/-- The gossiper converges: one logger and one CA are known, and the FULL objects of both arrive. -/
def Ref.converge : List (Clock × GOp) :=
  [(Ref.clk, .recv 10 (Ref.fullOf (go!"G1") (go!"G2"))), ({ Ref.clk with second := go!"17" }, .recv 10 Ref.revFullG)]

example :
    let s := grun Ref.gconf GState.init [(Ref.clk, .recv 10 (Ref.fullOf (go!"G1") (go!"G2")))]
    let s' := gstep Ref.gconf s ({ Ref.clk with second := go!"17" }, .recv 10 Ref.revFullG)
    GReach Ref.gconf s ∧ s'.convergeTime ≠ s.convergeTime ∧ s'.convergeTime = go!"17" ∧
      OneEach [go!"L1", go!"C1"] (Outcome s'.storage) := by
  refine ⟨⟨_, rfl⟩, by decide +kernel, by decide +kernel, ?_⟩
  generalize hs' : gstep Ref.gconf (grun Ref.gconf GState.init [(Ref.clk, .recv 10 (Ref.fullOf (go!"G1") (go!"G2")))])
    ({ Ref.clk with second := go!"17" }, .recv 10 Ref.revFullG) = s'
  have h1 : s'.storage.sthFull.entries = [(⟨go!"05", .STH_FULL, go!"L1"⟩, Ref.fullOf (go!"G1") (go!"G2"))] := by
    subst hs'; decide +kernel
  have h2 : s'.storage.revFull.entries = [(⟨go!"05", .REV_FULL, go!"C1"⟩, Ref.revFullG)] := by subst hs'; decide +kernel
  have h3 : s'.storage.accFull.entries = [] := by subst hs'; decide +kernel
  have h4 : s'.storage.conInit.entries = [] := by subst hs'; decide +kernel
  have h5 : (Ref.fullOf (go!"G1") (go!"G2")).payload.p0 = go!"L1" := by decide +kernel
  have h6 : Ref.revFullG.payload.p0 = go!"C1" := by decide +kernel
  have key : ∀ x t k, Outcome s'.storage x t k → (x = go!"L1" ∧ t = .STH_FULL ∧ k = ⟨go!"05", .STH_FULL, go!"L1"⟩) ∨
      (x = go!"C1" ∧ t = .REV_FULL ∧ k = ⟨go!"05", .REV_FULL, go!"C1"⟩) := by
    rintro x t k ⟨ht, o, ho, rfl⟩
    rw [heldAs_iff, GoMap.get_eq_some_iff] at ho
    rcases ht with rfl | rfl | rfl | rfl
    · simp only [Storage.objs, h1, List.mem_singleton, Prod.mk.injEq] at ho
      exact .inl ⟨by rw [ho.2]; exact h5, rfl, ho.1⟩
    · simp only [Storage.objs, h2, List.mem_singleton, Prod.mk.injEq] at ho
      exact .inr ⟨by rw [ho.2]; exact h6, rfl, ho.1⟩
    · simp [Storage.objs, h3] at ho
    · simp [Storage.objs, h4] at ho
  constructor
  · intro x t k h
    rcases key x t k h with ⟨rfl, _⟩ | ⟨rfl, _⟩ <;> simp
  · intro x t k t' k' h h'
    rcases key x t k h with ⟨rfl, rfl, rfl⟩ | ⟨rfl, rfl, rfl⟩ <;> rcases key _ t' k' h' with ⟨h0, rfl, rfl⟩ | ⟨h0, rfl, rfl⟩
    · exact ⟨rfl, rfl⟩
    · exact absurd h0 (by decide)
    · exact absurd h0 (by decide)
    · exact ⟨rfl, rfl⟩

/-- First statements: the tree head of L1, then the revocations of C1. -/
example :
    let s := grun Ref.gconf GState.init [(Ref.clk, .recv 10 Ref.sth)]
    let s' := gstep Ref.gconf s ({ Ref.clk with second := go!"17" }, .recv 10 Ref.rev)
    s'.convergeTimeInit ≠ s.convergeTimeInit ∧ s'.convergeTimeInit = go!"17" := by
  decide +kernel

/-- C94 fails: the FULL object of L1 and a copy of it with another period in its (unsigned) period field are counted as
the outcomes of the logger L1 and the CA C1: the convergence time is recorded although nothing about C1 is held. -/
theorem C94_violated_counted_twice :
    let s := grun Ref.gconf GState.init
      [(Ref.clk, .recv 10 (Ref.fullOf (go!"G1") (go!"G2"))),
       ({ Ref.clk with second := go!"17" }, .recv 10 { Ref.fullOf (go!"G1") (go!"G2") with period := go!"06" })]
    Ref.gconf.totalLogger = 1 ∧ Ref.gconf.totalCA = 1 ∧ s.convergeTime = go!"17" ∧ ∀ t k, ¬ Outcome s.storage (go!"C1") t k := by
  refine ⟨rfl, rfl, by decide +kernel, ?_⟩
  generalize hs' : grun Ref.gconf GState.init _ = s'
  have h2 : s'.storage.revFull.entries = [] := by subst hs'; decide +kernel
  have h3 : s'.storage.accFull.entries = [] := by subst hs'; decide +kernel
  have h4 : s'.storage.conInit.entries = [] := by subst hs'; decide +kernel
  have h1 : s'.storage.sthFull.entries.all (fun p => p.2.payload.p0 == go!"L1") = true := by subst hs'; decide +kernel
  rintro t k ⟨ht, o, ho, e⟩
  rw [heldAs_iff, GoMap.get_eq_some_iff] at ho
  rcases ht with rfl | rfl | rfl | rfl
  · have := List.all_eq_true.1 h1 _ ho
    simp only [beq_iff_eq] at this
    rw [this] at e
    exact absurd e (by decide)
  · simp [Storage.objs, h2] at ho
  · simp [Storage.objs, h3] at ho
  · simp [Storage.objs, h4] at ho

/-- C94 fails: the time of an earlier period stays. After converging in period 05 and wiping, a gossiper that receives
one tree head and no FULL object at all in period 06 logs for period 06 the convergence time of period 05. -/
theorem C94_violated_stale :
    let s := grun Ref.gconf GState.init (Ref.converge ++ [(Ref.clk, .periodic),
      (⟨go!"06", go!"10", go!"t"⟩, .recv 10 Ref.sth), (⟨go!"06", go!"40", go!"t"⟩, .periodic)])
    ∃ e, s.log.get (go!"06") = some e ∧ e.convergeTime = go!"17" ∧ e.numSthInit = 1 ∧ e.numSthFull = 0 ∧
      e.numRevFull = 0 ∧ e.numAccFull = 0 ∧ e.numConInit = 0 :=
  ⟨((grun Ref.gconf GState.init (Ref.converge ++ [(Ref.clk, .periodic),
      (⟨go!"06", go!"10", go!"t"⟩, .recv 10 Ref.sth), (⟨go!"06", go!"40", go!"t"⟩, .periodic)])).log.get (go!"06")).getD
      (logEntry Ref.clk GState.init), by decide +kernel⟩

/-- C94 fails: after convergence at second 17 another FULL object about L1, with other signers, moves the recorded time
although nothing is stored. -/
theorem C94_violated_overwritten :
    let s := grun Ref.gconf GState.init Ref.converge
    let s' := gstep Ref.gconf s ({ Ref.clk with second := go!"50" }, .recv 10 (Ref.fullOf (go!"G2") (go!"G3")))
    s.convergeTime = go!"17" ∧ s'.convergeTime = go!"50" ∧ s'.storage = s.storage := by
  decide +kernel

/-- C94 fails: once there are more outcomes than entities, here three copies of the FULL object of L1 with different (unsigned)
periods, the arrival of the missing outcome of C1 is not recorded. -/
theorem C94_violated_overshoot :
    let full := Ref.fullOf (go!"G1") (go!"G2")
    let s := grun Ref.gconf GState.init [(Ref.clk, .recv 10 full), ({ Ref.clk with second := go!"17" }, .recv 10 { full with period := go!"06" }),
      ({ Ref.clk with second := go!"18" }, .recv 10 { full with period := go!"07" })]
    let s' := gstep Ref.gconf s ({ Ref.clk with second := go!"40" }, .recv 10 Ref.revFullG)
    Outcome s'.storage (go!"L1") .STH_FULL ⟨go!"05", .STH_FULL, go!"L1"⟩ ∧
      Outcome s'.storage (go!"C1") .REV_FULL ⟨go!"05", .REV_FULL, go!"C1"⟩ ∧ s.storage.revFull.len = 0 ∧ s'.convergeTime = go!"17" := by
  refine ⟨⟨.inl rfl, Ref.fullOf (go!"G1") (go!"G2"), ?_, by decide +kernel⟩, ⟨.inr (.inl rfl), Ref.revFullG, ?_, by decide +kernel⟩,
    by decide +kernel, by decide +kernel⟩
  · rw [heldAs_iff]; decide +kernel
  · rw [heldAs_iff]; decide +kernel

end CTng
