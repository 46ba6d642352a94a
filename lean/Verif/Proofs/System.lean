import Verif.Model.System
import Verif.Props.NetworkSplit
import Verif.Proofs.NetworkSerial
import Verif.Props.MonitorUpdates
/-
The gossipers of a system run the network program, its monitors the monitor program, and every post between them arrives.
-/
set_option autoImplicit false

namespace CTng
open Mon

variable {L : Lib} (X : XLib) (S : SysConf L)

/-! ### What a history of the system is for the gossipers and for one monitor -/

/-- The events of the gossiper network in an event. -/
def SysEvent.netPart (s : Sys) : SysEvent → List NEvent
  | .net e => [e]
  | .mon _ _ => []
  | .arrive i clk =>
    match s.posts[i]? with
    | some (.toGossiper x o) => [.node x (clk, .recv ((S.net.conf x).jsonLen o) o)]
    | _ => []

/-- The events at the monitor of `x` in an event. -/
def SysEvent.monPart (s : Sys) (x : Str) : SysEvent → List MonEvent
  | .net _ => []
  | .mon y e => if y = x then [e] else []
  | .arrive i _ =>
    match s.posts[i]? with
    | some (.toMonitor y o) => if y = x then [.gossip (some o)] else []
    | _ => []

def netHist (s : Sys) : List SysEvent → List NEvent
  | [] => []
  | e :: h => e.netPart S s ++ netHist (sysStep X S s e) h

def monHist (x : Str) (s : Sys) : List SysEvent → List MonEvent
  | [] => []
  | e :: h => e.monPart s x ++ monHist x (sysStep X S s e) h

theorem sysRun_append (s : Sys) (a b : List SysEvent) : sysRun X S s (a ++ b) = sysRun X S (sysRun X S s a) b := by
  simp [sysRun, List.foldl_append]

theorem netHist_append (s : Sys) (a b : List SysEvent) :
    netHist X S s (a ++ b) = netHist X S s a ++ netHist X S (sysRun X S s a) b := by
  induction a generalizing s with
  | nil => rfl
  | cons e t ih =>
    simp only [List.cons_append, netHist, ih, List.append_assoc]
    rfl

theorem monHist_append (x : Str) (s : Sys) (a b : List SysEvent) :
    monHist X S x s (a ++ b) = monHist X S x s a ++ monHist X S x (sysRun X S s a) b := by
  induction a generalizing s with
  | nil => rfl
  | cons e t ih =>
    simp only [List.cons_append, monHist, ih, List.append_assoc]
    rfl

theorem sysMon_net (s : Sys) (x : Str) (e : MonEvent) : (sysMon X S s x e).net = s.net := by
  unfold sysMon
  split
  · rfl
  · split <;> rfl

theorem sysNet_mon (s : Sys) (e : NEvent) : (sysNet S s e).mon = s.mon := rfl

theorem sysMon_mon (s : Sys) (x y : Str) (e : MonEvent) :
    (sysMon X S s x e).mon y = if x = y then (s.mon y).bind (fun m => monStep X (S.mon y) m e) else s.mon y := by
  unfold sysMon
  by_cases h : x = y
  · subst h
    rw [if_pos rfl]
    cases hm : s.mon x with
    | none => simp [hm]
    | some m =>
      simp only [Option.bind_some]
      cases monStep X (S.mon x) m e <;> simp
  · rw [if_neg h]
    have h' : ¬ y = x := fun e => h e.symm
    split
    · rfl
    · split <;> simp [h']

theorem sysStep_net (s : Sys) (e : SysEvent) : (sysStep X S s e).net = nrun S.net s.net (e.netPart S s) := by
  cases e with
  | net e => rfl
  | mon x e => exact sysMon_net X S s x e
  | arrive i clk =>
    simp only [sysStep, SysEvent.netPart]
    split
    · rename_i h; rw [h]; rfl
    · rename_i p h
      rw [h]
      cases p with
      | toMonitor x o => exact sysMon_net X S _ x _
      | toGossiper x o => rfl

/-- The gossipers of the system run the network program. -/
theorem sysRun_net (s : Sys) (h : List SysEvent) : (sysRun X S s h).net = nrun S.net s.net (netHist X S s h) := by
  induction h generalizing s with
  | nil => rfl
  | cons e t ih =>
    have := ih (sysStep X S s e)
    rw [sysStep_net] at this
    rw [netHist, nrun_append, ← this]
    rfl

theorem sysStep_mon (s : Sys) (e : SysEvent) (x : Str) :
    (sysStep X S s e).mon x = (s.mon x).bind fun m => monRun X (S.mon x) m (e.monPart s x) := by
  have h0 : s.mon x = (s.mon x).bind fun m => monRun X (S.mon x) m [] := by cases s.mon x <;> rfl
  have h1 : ∀ (s' : Sys), s'.mon = s.mon → ∀ y (ev : MonEvent),
      (sysMon X S s' y ev).mon x = (s.mon x).bind fun m => monRun X (S.mon x) m (if y = x then [ev] else []) := by
    intro s' hs y ev
    rw [sysMon_mon, hs]
    by_cases h : y = x
    · simp only [if_pos h, monRun]
      congr 1
      funext m
      cases monStep X (S.mon x) m ev <;> rfl
    · simp only [if_neg h]; exact h0
  cases e with
  | net e => exact h0
  | mon y ev => exact h1 s rfl y ev
  | arrive i clk =>
    simp only [sysStep, SysEvent.monPart]
    split
    · rename_i h; rw [h]; exact h0
    · rename_i p h
      rw [h]
      cases p with
      | toMonitor y o => exact h1 { s with posts := s.posts.eraseIdx i } rfl y _
      | toGossiper y o => exact h0

/-- The monitors of the system run the monitor program. -/
theorem sysRun_mon (s : Sys) (h : List SysEvent) (x : Str) :
    (sysRun X S s h).mon x = (s.mon x).bind fun m => monRun X (S.mon x) m (monHist X S x s h) := by
  induction h generalizing s with
  | nil =>
    show s.mon x = _
    cases s.mon x <;> rfl
  | cons e t ih =>
    have := ih (sysStep X S s e)
    rw [sysStep_mon] at this
    show (sysRun X S (sysStep X S s e) t).mon x = _
    rw [this, Option.bind_assoc]
    congr 1
    funext m
    exact (monRun_append X (S.mon x) m _ _).symm

theorem SysReach.net {s : Sys} (h : SysReach X S s) : NReach S.net s.net := by
  obtain ⟨h, rfl⟩ := h
  exact ⟨_, sysRun_net X S _ h⟩

theorem sysReach_run {s : Sys} (h : SysReach X S s) (es : List SysEvent) : SysReach X S (sysRun X S s es) := by
  obtain ⟨a, rfl⟩ := h
  exact ⟨a ++ es, (sysRun_append X S _ a es).symm⟩

/-! ### From the gossiper to its monitor -/

theorem nodeStep_out (N : NetConf L) (s : Net) (x : Str) (e : Clock × CEvent) (y : Str) :
    ∃ d, ((nodeStep N s x e).node y).g.out = (s.node y).g.out ++ d ∧ (y ≠ x → d = []) := by
  unfold nodeStep
  split
  · by_cases h : y = x
    · subst h
      simp only [if_pos rfl]
      obtain ⟨d, hd⟩ := cstep_out (N.conf y) (s.node y) e
      exact ⟨d, hd, fun h => absurd rfl h⟩
    · simp only [if_neg h]
      exact ⟨[], by simp, fun _ => rfl⟩
  · exact ⟨[], by simp, fun _ => rfl⟩

/-- An event of the network adds output at its target only. -/
theorem nstep_out (N : NetConf L) (s : Net) (e : NEvent) (y : Str) :
    ∃ d, ((nstep N s e).node y).g.out = (s.node y).g.out ++ d ∧ (e.target s ≠ some y → d = []) := by
  cases e with
  | node x e =>
    obtain ⟨d, h1, h2⟩ := nodeStep_out N s x e y
    exact ⟨d, h1, fun h => h2 fun e => h (by simp [NEvent.target, e])⟩
  | deliver i clk =>
    simp only [nstep, NEvent.target]
    split
    · exact ⟨[], by simp, fun _ => rfl⟩
    · rename_i m hm
      split
      · split
        · exact ⟨[], by simp, fun _ => rfl⟩
        · rename_i ev _
          obtain ⟨d, h1, h2⟩ := nodeStep_out N { s with flight := s.flight.eraseIdx i } m.dst (clk, ev) y
          exact ⟨d, h1, fun h => h2 fun e => h (by rw [hm, e]; rfl)⟩
      · exact ⟨[], by simp, fun _ => rfl⟩

theorem mem_ownersOf {o : GossipObj} {l : List Out} : o ∈ ownersOf l ↔ .owner o ∈ l := by
  unfold ownersOf
  rw [List.mem_filterMap]
  constructor
  · rintro ⟨a, ha, h⟩
    cases a <;> simp at h
    exact h ▸ ha
  · intro h
    exact ⟨_, h, rfl⟩

/-- What a gossiper posts to its owner is under way afterwards. -/
theorem sysNet_posts (s : Sys) (e : NEvent) (x : Str) (o : GossipObj) :
    (.toMonitor x o ∈ s.posts → .toMonitor x o ∈ (sysNet S s e).posts) ∧
    (.owner o ∈ ((sysNet S s e).net.node x).g.out → .owner o ∈ (s.net.node x).g.out ∨ .toMonitor x o ∈ (sysNet S s e).posts) := by
  refine ⟨fun h => List.mem_append_left _ h, fun h => ?_⟩
  obtain ⟨d, h1, h2⟩ := nstep_out S.net s.net e x
  have h3 : .owner o ∈ ((nstep S.net s.net e).node x).g.out := h
  rw [h1] at h3
  rcases List.mem_append.1 h3 with h3 | h3
  · exact .inl h3
  · right
    have ht : e.target s.net = some x := by
      by_cases ht : e.target s.net = some x
      · exact ht
      · rw [h2 ht] at h3; cases h3
    refine List.mem_append_right _ ?_
    rw [ht]
    simp only
    rw [h1, List.drop_left]
    exact List.mem_map.2 ⟨o, mem_ownersOf.2 h3, rfl⟩

theorem sysMon_posts (s : Sys) (y : Str) (e : MonEvent) (p : Post) (h : p ∈ s.posts) : p ∈ (sysMon X S s y e).posts := by
  unfold sysMon
  split
  · exact h
  · split
    · exact h
    · exact List.mem_append_left _ h

theorem sysNet_keeps (s : Sys) (e : NEvent) (p : Post) (h : p ∈ s.posts) : p ∈ (sysNet S s e).posts :=
  List.mem_append_left _ h

/-- A post under way is still under way after an event, or has arrived. -/
theorem sysStep_posts (s : Sys) (e : SysEvent) (p : Post) (h : p ∈ s.posts) :
    p ∈ (sysStep X S s e).posts ∨
    match p with
    | .toMonitor x o => .gossip (some o) ∈ e.monPart s x
    | .toGossiper x o => ∃ clk n, .node x (clk, .recv n o) ∈ e.netPart S s := by
  cases e with
  | net e => exact .inl (sysNet_keeps S s e p h)
  | mon y e => exact .inl (sysMon_posts X S s y e p h)
  | arrive i clk =>
    simp only [sysStep, SysEvent.monPart, SysEvent.netPart]
    cases hq : s.posts[i]? with
    | none => exact .inl h
    | some q =>
      rcases mem_eraseIdx_or hq h with h | rfl
      · cases q with
        | toMonitor y o => exact .inl (sysMon_posts X S _ y _ p h)
        | toGossiper y o => exact .inl (sysNet_keeps S _ _ p h)
      · cases p with
        | toMonitor y o => right; simp
        | toGossiper y o => exact .inr ⟨clk, _, List.mem_singleton.2 rfl⟩

theorem sysRun_posts (s : Sys) (h : List SysEvent) (p : Post) (hp : p ∈ s.posts) :
    p ∈ (sysRun X S s h).posts ∨
    match p with
    | .toMonitor x o => .gossip (some o) ∈ monHist X S x s h
    | .toGossiper x o => ∃ clk n, .node x (clk, .recv n o) ∈ netHist X S s h := by
  induction h generalizing s with
  | nil => exact .inl hp
  | cons e t ih =>
    rcases sysStep_posts X S s e p hp with h1 | h1
    · rcases ih _ h1 with h2 | h2
      · exact .inl h2
      · right
        cases p with
        | toMonitor x o => exact List.mem_append_right _ h2
        | toGossiper x o =>
          obtain ⟨clk, n, h2⟩ := h2
          exact ⟨clk, n, List.mem_append_right _ h2⟩
    · right
      cases p with
      | toMonitor x o => exact List.mem_append_left _ h1
      | toGossiper x o =>
        obtain ⟨clk, n, h1⟩ := h1
        exact ⟨clk, n, List.mem_append_left _ h1⟩

theorem sysStep_owner (s : Sys) (e : SysEvent) (x : Str) (o : GossipObj)
    (h : .owner o ∈ ((sysStep X S s e).net.node x).g.out) :
    .owner o ∈ (s.net.node x).g.out ∨ .toMonitor x o ∈ (sysStep X S s e).posts := by
  cases e with
  | net e => exact (sysNet_posts S s e x o).2 h
  | mon y e =>
    have h' : .owner o ∈ ((sysMon X S s y e).net.node x).g.out := h
    rw [sysMon_net] at h'
    exact .inl h'
  | arrive i clk =>
    simp only [sysStep] at h ⊢
    split at h
    · exact .inl h
    · rename_i p hp
      cases p with
      | toMonitor y o' =>
        simp only at h
        rw [sysMon_net] at h
        exact .inl h
      | toGossiper y o' => exact (sysNet_posts S { s with posts := s.posts.eraseIdx i } _ x o).2 h

/-- Everything a gossiper posts to its owner is under way or has arrived. -/
theorem owner_arrives (s : Sys) (h : List SysEvent) (x : Str) (o : GossipObj)
    (ho : .owner o ∈ ((sysRun X S s h).net.node x).g.out) :
    .owner o ∈ (s.net.node x).g.out ∨ .toMonitor x o ∈ (sysRun X S s h).posts ∨ .gossip (some o) ∈ monHist X S x s h := by
  induction h generalizing s with
  | nil => exact .inl ho
  | cons e t ih =>
    rcases ih (sysStep X S s e) ho with h1 | h1 | h1
    · rcases sysStep_owner X S s e x o h1 with h2 | h2
      · exact .inl h2
      · rcases sysRun_posts X S (sysStep X S s e) t _ h2 with h3 | h3
        · exact .inr (.inl h3)
        · exact .inr (.inr (List.mem_append_right _ h3))
    · exact .inr (.inl h1)
    · exact .inr (.inr (List.mem_append_right _ h1))

/-! ### From the monitor to its gossiper -/

/-- The monitor of `x` posts the object to its gossiper in this history. -/
def MonPosts (s : Sys) (h : List SysEvent) (x : Str) (o : GossipObj) : Prop :=
  ∃ a e b m m', monHist X S x s h = a ++ e :: b ∧ ((s.mon x).bind fun m => monRun X (S.mon x) m a) = some m ∧
    monStep X (S.mon x) m e = some m' ∧ SendsWhy (S.mon x) m e o ∧ m'.sent = m.sent ++ [o]

theorem monStep_sent {c : MonConf L} {m m' : MonState} {e : MonEvent} (h : monStep X c m e = some m') :
    m'.sent = m.sent ∨ ∃ o, SendsWhy c m e o ∧ m'.sent = m.sent ++ [o] := by
  rcases mon_cases X c h with ⟨clk, _, rfl⟩ | ⟨q, w, t, rfl⟩ | ⟨q, w, g, _, rfl⟩ | ⟨q, w, g, hg, rfl⟩ | ⟨i, k, d, _, _, rfl⟩
  · exact .inl rfl
  · exact .inl rfl
  · left
    unfold storeObject
    cases g.type <;> rfl
  · exact .inr ⟨g, hg, rfl⟩
  · left
    unfold fireCRV
    split <;> rfl

/-- One event at a monitor, and the posts to its gossiper. -/
theorem sysMon_sends (s : Sys) (y : Str) (e : MonEvent) :
    (sysMon X S s y e).posts = s.posts ∨
    ∃ o m m', s.mon y = some m ∧ monStep X (S.mon y) m e = some m' ∧ SendsWhy (S.mon y) m e o ∧ m'.sent = m.sent ++ [o] ∧
      (sysMon X S s y e).posts = s.posts ++ [.toGossiper y o] := by
  unfold sysMon
  cases hm : s.mon y with
  | none => exact .inl rfl
  | some m =>
    simp only
    cases hs : monStep X (S.mon y) m e with
    | none => exact .inl rfl
    | some m' =>
      simp only
      rcases monStep_sent X hs with h | ⟨o, ho, h⟩
      · left; rw [h]; simp
      · right
        refine ⟨o, m, m', rfl, hs, ho, h, ?_⟩
        rw [h, List.drop_left]; rfl

theorem MonPosts.cons {s : Sys} {e : SysEvent} {h : List SysEvent} {x : Str} {o : GossipObj}
    (hp : MonPosts X S (sysStep X S s e) h x o) : MonPosts X S s (e :: h) x o := by
  obtain ⟨a, ev, b, m, m', h1, h2, h3⟩ := hp
  refine ⟨e.monPart s x ++ a, ev, b, m, m', by simp [monHist, h1], ?_, h3⟩
  rw [sysStep_mon, Option.bind_assoc] at h2
  rw [← h2]
  congr 1
  funext m
  exact monRun_append X (S.mon x) m _ _

/-- What is under way to a gossiper was under way before or is posted by its monitor. -/
theorem sysStep_toGossiper (s : Sys) (e : SysEvent) (x : Str) (o : GossipObj) (h : .toGossiper x o ∈ (sysStep X S s e).posts) :
    .toGossiper x o ∈ s.posts ∨ MonPosts X S s [e] x o := by
  have hnet : ∀ (s' : Sys) (ev : NEvent), .toGossiper x o ∈ (sysNet S s' ev).posts → .toGossiper x o ∈ s'.posts := by
    intro s' ev h
    rcases List.mem_append.1 h with h | h
    · exact h
    · split at h
      · cases h
      · simp at h
  have hmon : ∀ (s' : Sys) (y : Str) (ev : MonEvent), s'.mon = s.mon → e.monPart s y = [ev] →
      .toGossiper x o ∈ (sysMon X S s' y ev).posts → .toGossiper x o ∈ s'.posts ∨ MonPosts X S s [e] x o := by
    intro s' y ev hs hev h
    rcases sysMon_sends X S s' y ev with h1 | ⟨o', m, m', h1, h2, h3, h4, h5⟩
    · rw [h1] at h; exact .inl h
    · rw [h5] at h
      rcases List.mem_append.1 h with h | h
      · exact .inl h
      · right
        simp only [List.mem_singleton, Post.toGossiper.injEq] at h
        obtain ⟨rfl, rfl⟩ := h
        exact ⟨[], ev, [], m, m', by simp [monHist, hev], by rw [← hs, h1]; rfl, h2, h3, h4⟩
  cases e with
  | net e => exact .inl (hnet s e h)
  | mon y ev => exact hmon s y ev rfl (by simp [SysEvent.monPart]) h
  | arrive i clk =>
    simp only [sysStep] at h
    split at h
    · exact .inl h
    · rename_i p hp
      have hsub : .toGossiper x o ∈ s.posts.eraseIdx i → Post.toGossiper x o ∈ s.posts := List.mem_of_mem_eraseIdx
      cases p with
      | toMonitor y o' =>
        rcases hmon { s with posts := s.posts.eraseIdx i } y (.gossip (some o')) rfl (by simp [SysEvent.monPart, hp]) h with h | h
        · exact .inl (hsub h)
        · exact .inr h
      | toGossiper y o' => exact .inl (hsub (hnet _ _ h))

theorem MonPosts.mono {s : Sys} {e : SysEvent} {h : List SysEvent} {x : Str} {o : GossipObj}
    (hp : MonPosts X S s [e] x o) : MonPosts X S s (e :: h) x o := by
  obtain ⟨a, ev, b, m, m', h1, h2⟩ := hp
  refine ⟨a, ev, b ++ monHist X S x (sysStep X S s e) h, m, m', ?_, h2⟩
  simp only [monHist, List.append_nil] at h1
  simp [monHist, h1]

/-- Whatever reaches a gossiper comes from outside, was under way, or is posted by its monitor. -/
theorem recv_source (s : Sys) (h : List SysEvent) (x : Str) (clk : Clock) (n : Int) (o : GossipObj)
    (hr : NEvent.node x (clk, .recv n o) ∈ netHist X S s h) :
    SysEvent.net (.node x (clk, .recv n o)) ∈ h ∨ .toGossiper x o ∈ s.posts ∨ MonPosts X S s h x o := by
  induction h generalizing s with
  | nil => cases hr
  | cons e t ih =>
    rcases List.mem_append.1 hr with h1 | h1
    · cases e with
      | net e => exact .inl (by rw [List.mem_singleton.1 h1]; exact List.mem_cons_self)
      | mon y e => cases h1
      | arrive i clk =>
        simp only [SysEvent.netPart] at h1
        split at h1
        · rename_i y o' hp
          simp at h1
          obtain ⟨rfl, _, _, rfl⟩ := h1
          exact .inr (.inl (List.mem_of_getElem? hp))
        · cases h1
    · rcases ih _ h1 with h2 | h2 | h2
      · exact .inl (List.mem_cons_of_mem _ h2)
      · rcases sysStep_toGossiper X S s e x o h2 with h3 | h3
        · exact .inr (.inl h3)
        · exact .inr (.inr (h3.mono X S))
      · exact .inr (.inr (h2.cons X S))

/-- What the monitor posts is under way to its gossiper or has arrived. -/
theorem monPosts_arrives (s : Sys) (h : List SysEvent) (x : Str) (o : GossipObj) (a : List MonEvent) (e : MonEvent)
    (b : List MonEvent) (m m' : MonState) (h1 : monHist X S x s h = a ++ e :: b)
    (h2 : ((s.mon x).bind fun m => monRun X (S.mon x) m a) = some m) (h3 : monStep X (S.mon x) m e = some m')
    (h4 : m'.sent = m.sent ++ [o]) :
    .toGossiper x o ∈ (sysRun X S s h).posts ∨ ∃ clk n, .node x (clk, .recv n o) ∈ netHist X S s h := by
  induction h generalizing s a with
  | nil => simp [monHist] at h1
  | cons ev t ih =>
    simp only [monHist] at h1
    cases hp : ev.monPart s x with
    | nil =>
      rw [hp, List.nil_append] at h1
      have := ih (sysStep X S s ev) a h1 (by
        rw [sysStep_mon, hp]
        cases hm : s.mon x with
        | none => rw [hm] at h2; exact h2
        | some m0 => rw [hm] at h2; exact h2)
      rcases this with h | ⟨clk, n, h⟩
      · exact .inl h
      · exact .inr ⟨clk, n, List.mem_append_right _ h⟩
    | cons e0 l =>
      have hl : l = [] := by
        cases ev with
        | net _ => simp [SysEvent.monPart] at hp
        | mon y e' =>
          simp only [SysEvent.monPart] at hp
          split at hp
          · simp at hp; exact hp.2
          · cases hp
        | arrive i clk =>
          simp only [SysEvent.monPart] at hp
          split at hp
          · split at hp
            · simp at hp; exact hp.2
            · cases hp
          · cases hp
      subst hl
      rw [hp] at h1
      cases a with
      | nil =>
        simp only [List.singleton_append, List.nil_append, List.cons.injEq] at h1
        obtain ⟨rfl, _⟩ := h1
        have hm : s.mon x = some m := by
          cases hm : s.mon x with
          | none => rw [hm] at h2; cases h2
          | some m0 => rw [hm] at h2; simpa [monRun] using h2
        have key : ∀ s' : Sys, s'.mon = s.mon → .toGossiper x o ∈ (sysMon X S s' x e0).posts := by
          intro s' hs
          unfold sysMon
          rw [hs, hm]
          simp only [h3]
          rw [h4, List.drop_left]
          exact List.mem_append_right _ (by simp)
        have hpost : .toGossiper x o ∈ (sysStep X S s ev).posts := by
          cases ev with
          | net _ => simp [SysEvent.monPart] at hp
          | mon y e' =>
            simp only [SysEvent.monPart] at hp
            split at hp
            · rename_i hy
              simp at hp
              subst hy hp
              exact key s rfl
            · cases hp
          | arrive i clk =>
            simp only [SysEvent.monPart] at hp
            split at hp
            · rename_i y o' hpi
              split at hp
              · rename_i hy
                simp at hp
                subst hy
                simp only [sysStep, hpi]
                rw [hp]
                exact key _ rfl
              · cases hp
            · cases hp
        rcases sysRun_posts X S (sysStep X S s ev) t _ hpost with h | ⟨clk, n, h⟩
        · exact .inl h
        · exact .inr ⟨clk, n, List.mem_append_right _ h⟩
      | cons e1 a' =>
        simp only [List.singleton_append, List.cons_append, List.cons.injEq] at h1
        obtain ⟨rfl, h1⟩ := h1
        have := ih (sysStep X S s ev) a' h1 (by
          rw [sysStep_mon, hp, Option.bind_assoc]
          rw [← h2]
          congr 1
          funext m0
          exact (monRun_append X (S.mon x) m0 [e0] a').symm)
        rcases this with h | ⟨clk, n, h⟩
        · exact .inl h
        · exact .inr ⟨clk, n, List.mem_append_right _ h⟩

end CTng
