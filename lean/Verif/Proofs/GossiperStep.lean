import Verif.Proofs.GossiperInv
/- What one atomic action can change. -/
set_option autoImplicit false

namespace CTng
variable {L : Lib} (cf : GConf L)

/-- Types that are sent to other gossipers. -/
def GType.toPeers : GType → Bool
  | .STH_INIT | .REV_INIT | .CON_INIT | .STH_FRAG | .REV_FRAG | .ACC_FRAG => true
  | _ => false

/-- Types that are sent to the owner monitor. -/
def GType.toOwner : GType → Bool
  | .STH_INIT | .REV_INIT | .CON_INIT | .STH_FULL | .REV_FULL | .ACC_FULL => true
  | _ => false

/-- Types of the objects at each program point. -/
def Frame.wt : Frame → Prop
  | .initFull g | .initFrag g | .signBlk g | .sign g => g.type.isInit = true
  | .initMal g | .initCon g | .arm g => g.type = .STH_INIT ∨ g.type = .REV_INIT
  | .store g | .storeBl g | .storeNote g => g.type.isObj = true
  | .conCount g => g.type = .CON_INIT
  | .fragFull g | .fragStore g | .fragGen g => g.type.isFrag = true
  | .fullBlk g | .fullCount g => g.type.isFull = true
  | .sendPeers g => g.type.toPeers = true
  | .sendOwner g => g.type.toOwner = true
  | _ => True

theorem wt_new (clk : Clock) (s : GState) (f : Frame) (hf : f.wt) (new : List Frame)
    (h : (stepFrame cf clk s f).2 = some new) : ∀ f' ∈ new, f'.wt := by
  have aft : ∀ g b, GType.isObj g.type = true → ∀ f' ∈ afterStore g b, f'.wt := by
    intro g b hg f' hf'
    unfold afterStore at hf'
    cases ht : g.type <;> rw [ht] at hf' hg <;> cases b <;>
      simp_all [Frame.wt, GType.isInit, GType.isObj] <;>
      (try (rcases hf' with rfl | rfl | rfl <;> simp [ht, GType.toPeers, GType.toOwner])) <;>
      (try (rcases hf' with rfl | rfl <;> simp [ht, GType.toPeers, GType.toOwner]))
  cases f with
  | recv n g =>
    simp only [stepFrame] at h
    split at h <;> simp at h
    subst h; simp [Frame.wt]
  | recon g => simp only [stepFrame, Option.some.injEq] at h; subst h; simp [Frame.wt]
  | handle g =>
    simp only [stepFrame, Option.some.injEq] at h; subst h
    split <;> simp [Frame.wt]
  | blk g =>
    simp only [stepFrame, Option.some.injEq] at h; subst h
    split
    · simp
    · cases ht : g.type <;> simp [Frame.wt, ht, GType.isInit, GType.isFrag, GType.isFull]
  | initFull g =>
    simp only [stepFrame, Option.some.injEq] at h; subst h
    split
    · simp
    · simpa [Frame.wt] using hf
  | initFrag g =>
    simp only [stepFrame, Option.some.injEq] at h; subst h
    split
    · simp
    · cases ht : g.type <;> simp_all [Frame.wt, GType.isInit, GType.isObj]
  | initMal g =>
    simp only [stepFrame, Option.some.injEq] at h; subst h
    split
    · simpa [Frame.wt] using hf
    · rcases hf with hf | hf <;> simp [Frame.wt, hf, GType.isObj]
  | initCon g => simp only [stepFrame, Option.some.injEq] at h; subst h; simp [Frame.wt]
  | store g =>
    simp only [stepFrame] at h
    split at h
    · cases h
    · simp at h; subst h; exact aft g false hf
    · split at h
      · simp at h; subst h; exact aft g false hf
      · simp at h; subst h; simpa [Frame.wt] using hf
  | storeBl g => simp only [stepFrame, Option.some.injEq] at h; subst h; simpa [Frame.wt] using hf
  | storeNote g => simp only [stepFrame, Option.some.injEq] at h; subst h; exact aft g true hf
  | signBlk g =>
    simp only [stepFrame, Option.some.injEq] at h; subst h
    split
    · simp
    · simpa [Frame.wt] using hf
  | sign g =>
    simp only [stepFrame] at h
    split at h
    · cases h
    · simp at h; subst h; simp [Frame.wt]
  | conCount g =>
    simp only [stepFrame, Option.some.injEq] at h; subst h
    have hg : g.type = .CON_INIT := hf
    split
    · simp [Frame.wt, hg, GType.isObj]
    · simp
  | fragFull g =>
    simp only [stepFrame, Option.some.injEq] at h; subst h
    split
    · simp
    · simpa [Frame.wt] using hf
  | fragStore g =>
    simp only [stepFrame, Option.some.injEq] at h; subst h
    intro f' hf'
    rcases List.mem_append.1 hf' with h1 | h1 <;> split at h1 <;> simp at h1 <;> subst h1
    · exact hf
    · have hg : g.type.isFrag = true := hf
      show g.type.toPeers = true
      cases ht : g.type <;> simp_all [GType.isFrag, GType.toPeers]
  | fragGen g =>
    simp only [stepFrame] at h
    split at h
    · cases h
    · simp at h; subst h; simp [Frame.wt]
  | fullBlk g =>
    simp only [stepFrame, Option.some.injEq] at h; subst h
    split
    · simp
    · simpa [Frame.wt] using hf
  | fullCount g =>
    simp only [stepFrame, Option.some.injEq] at h; subst h
    have hg : g.type.isFull = true := hf
    split
    · cases ht : g.type <;> simp_all [Frame.wt, GType.isObj, GType.isFull]
    · simp [Frame.wt]
  | _ => simp only [stepFrame, Option.some.injEq] at h; subst h; simp

/-- The changes of the stored maps one atomic action can make. -/
inductive SStep (s : GState) : Frame → Storage → Prop
  | same (f) : SStep s f s.storage
  | payload (n g) : g.verify cf.crypto = .ok → g.type = .REV_INIT → n > cf.optThreshold →
      SStep s (.recv n g) { s.storage with revPayload := s.storage.revPayload.set g.getID g }
  | put (g) : g.verify cf.crypto = .ok → g.type.isObj = true → (g.type.isFull = false → dupCheck s g = false) →
      SStep s (.store g) (s.storage.putObj g.type g.getID g)
  | frag (g) : g.type.isFrag = true → ((s.storage.fragList g.type g.getID).length : Int) < cf.crypto.threshold →
      SStep s (.fragStore g) (s.storage.appendFrag g.type g.getID g)
  | wipe : SStep s .wipe { Storage.init with conInit := s.storage.conInit }

theorem dupCheck_congr {s s' : GState} (h : s.storage = s'.storage) (g : GossipObj) : dupCheck s g = dupCheck s' g := by
  unfold dupCheck; rw [h]

theorem storage_storeLocked {s : GState} {g : GossipObj} (hg : g.type.isObj = true) {s' : GState} {b : Bool}
    (h : storeLocked s g = (s', b)) :
    (b = false ∧ s' = s ∧ dupCheck s g = true) ∨
    (b = true ∧ s' = { s with storage := s.storage.putObj g.type g.getID g } ∧
      (g.type.isFull = false → dupCheck s g = false)) := by
  unfold storeLocked at h
  cases ht : g.type <;> rw [ht] at hg <;> simp [GType.isObj] at hg <;> simp only [ht] at h <;>
    (try (split at h <;> simp_all [GType.isFull] ; done)) <;> simp_all [GType.isFull]

@[simp] theorem storage_addBlacklist (s : GState) (x : Str) : (addBlacklist s x).storage = s.storage := by
  unfold addBlacklist; split <;> rfl

@[simp] theorem storage_storeBlacklist (s : GState) (g : GossipObj) : (storeBlacklist s g).storage = s.storage := by
  unfold storeBlacklist; split <;> simp

@[simp] theorem storage_storeNote (clk : Clock) (s : GState) (g : GossipObj) :
    (storeNote cf clk s g).storage = s.storage := by
  unfold storeNote noteInitConverge; split <;> (try split) <;> rfl

@[simp] theorem storage_noteConverge (clk : Clock) (s : GState) : (noteConverge cf clk s).storage = s.storage := by
  unfold noteConverge; split <;> rfl

@[simp] theorem storage_sendToGossipers (s : GState) (g : GossipObj) :
    (sendToGossipers cf s g).storage = s.storage := by
  unfold sendToGossipers; simp only; split <;> rfl

theorem readAndStore_frag {s : GState} {g : GossipObj} (hg : g.type.isFrag = true) :
    readAndStore cf s g =
      if ((s.storage.fragList g.type g.getID).length : Int) < cf.crypto.threshold then
        ({ s with storage := s.storage.appendFrag g.type g.getID g }, (s.storage.fragList g.type g.getID).length)
      else (s, (s.storage.fragList g.type g.getID).length) := by
  unfold readAndStore
  cases ht : g.type <;> simp_all [GType.isFrag]

theorem savePayload_eq (s : GState) (g : GossipObj) :
    (savePayload cf s g).1 = s ∨ (g.verify cf.crypto = .ok ∧ (savePayload cf s g).1 =
      { s with storage := { s.storage with revPayload := s.storage.revPayload.set g.getID g } }) := by
  unfold savePayload
  cases g.verify cf.crypto <;> simp

theorem stepFrame_storage (clk : Clock) (s : GState) (f : Frame) (hf : f.wt) :
    SStep cf s f (stepFrame cf clk s f).1.storage := by
  cases f with
  | recv n g =>
    have key : (stepFrame cf clk s (.recv n g)).1 = (if n > cf.optThreshold ∧ g.type = .REV_INIT
        then savePayload cf { s with trafficReceived := s.trafficReceived + n } g
        else ({ s with trafficReceived := s.trafficReceived + n }, true)).1 := by
      simp only [stepFrame]
      split <;> (rename_i h; rw [h])
    rw [key]
    split
    · rename_i hc
      rcases savePayload_eq cf { s with trafficReceived := s.trafficReceived + n } g with h | ⟨h1, h2⟩
      · rw [h]; exact .same _
      · rw [h2]; exact .payload n g h1 hc.2 hc.1
    · exact .same _
  | store g =>
    unfold stepFrame
    simp only
    cases hv : g.verify cf.crypto with
    | panic => exact .same _
    | err e => exact .same _
    | ok =>
      simp only
      rcases hl : storeLocked { s with timerlist := s.timerlist ++ [clk.second] } g with ⟨s1, b⟩
      rcases storage_storeLocked hf hl with ⟨rfl, rfl, _⟩ | ⟨rfl, rfl, hd⟩
      · exact .same _
      · exact .put g hv hf (fun h => (dupCheck_congr rfl g).trans (hd h))
  | storeBl g => simp only [stepFrame, storage_storeBlacklist]; exact .same _
  | storeNote g => simp only [stepFrame, storage_storeNote]; exact .same _
  | sendPeers g => simp only [stepFrame, storage_sendToGossipers]; exact .same _
  | sign g =>
    unfold stepFrame signStatement
    simp only
    cases generateFRAG cf g <;> exact .same _
  | fragStore g =>
    simp only [stepFrame]
    rw [readAndStore_frag cf hf]
    split
    · rename_i h; exact .frag g hf h
    · exact .same _
  | fragGen g =>
    unfold stepFrame
    simp only
    split <;> exact .same _
  | fullNote => simp only [stepFrame, storage_noteConverge]; exact .same _
  | notify n x => simp only [stepFrame, notificationHandler]; split <;> exact .same _
  | request n x => simp only [stepFrame, requestHandler]; split <;> exact .same _
  | save => simp only [stepFrame, save]; split <;> exact .same _
  | wipe => exact .wipe
  | _ => exact .same _

/-- Only the blacklist step of `Store` changes the blacklist. -/
theorem stepFrame_blacklist (clk : Clock) (s : GState) (f : Frame) :
    (stepFrame cf clk s f).1.blacklist = s.blacklist ∨
    ∃ g, f = .storeBl g ∧ (g.type = .CON_INIT ∨ g.type = .ACC_FULL) ∧
      (stepFrame cf clk s f).1.blacklist = (addBlacklist s g.payload.p0).blacklist := by
  cases f with
  | recv n g =>
    left
    have key : (stepFrame cf clk s (.recv n g)).1 = (if n > cf.optThreshold ∧ g.type = .REV_INIT
        then savePayload cf { s with trafficReceived := s.trafficReceived + n } g
        else ({ s with trafficReceived := s.trafficReceived + n }, true)).1 := by
      simp only [stepFrame]
      split <;> (rename_i h; rw [h])
    rw [key]
    split
    · rcases savePayload_eq cf { s with trafficReceived := s.trafficReceived + n } g with h | ⟨h1, h2⟩
      · rw [h]
      · rw [h2]
    · rfl
  | store g =>
    left
    unfold stepFrame
    simp only
    cases hv : g.verify cf.crypto with
    | panic => rfl
    | err e => rfl
    | ok =>
      simp only
      have : ∀ s : GState, (storeLocked s g).1.blacklist = s.blacklist := by
        intro s; unfold storeLocked; split <;> (try split) <;> rfl
      have := this { s with timerlist := s.timerlist ++ [clk.second] }
      split <;> (rename_i h; rw [h] at this; exact this)
  | storeBl g =>
    by_cases h : g.type = .CON_INIT ∨ g.type = .ACC_FULL
    · right; refine ⟨g, rfl, h, ?_⟩
      rcases h with h | h <;> simp [stepFrame, storeBlacklist, h]
    · left
      simp only [stepFrame, storeBlacklist]
      cases ht : g.type <;> simp_all
  | storeNote g => left; simp only [stepFrame, storeNote, noteInitConverge]; split <;> (try split) <;> rfl
  | sendPeers g => left; simp only [stepFrame, sendToGossipers]; split <;> rfl
  | sign g =>
    left
    unfold stepFrame signStatement
    simp only
    cases generateFRAG cf g <;> rfl
  | fragStore g =>
    left
    simp only [stepFrame, readAndStore]
    split <;> (try dsimp only) <;> (try split) <;> rfl
  | fragGen g =>
    left
    unfold stepFrame
    simp only
    split <;> rfl
  | fullNote => left; simp only [stepFrame, noteConverge]; split <;> rfl
  | notify n x => left; simp only [stepFrame, notificationHandler]; split <;> rfl
  | request n x => left; simp only [stepFrame, requestHandler]; split <;> rfl
  | save => left; simp only [stepFrame, save]; split <;> rfl
  | _ => left; rfl

/-- Only `arm` adds a timer. -/
theorem stepFrame_timers (clk : Clock) (s : GState) (f : Frame) :
    (stepFrame cf clk s f).1.timers = s.timers ∨
    ∃ g, f = .arm g ∧ (stepFrame cf clk s f).1.timers = s.timers ++ [g] := by
  cases f with
  | recv n g =>
    left
    have key : (stepFrame cf clk s (.recv n g)).1 = (if n > cf.optThreshold ∧ g.type = .REV_INIT
        then savePayload cf { s with trafficReceived := s.trafficReceived + n } g
        else ({ s with trafficReceived := s.trafficReceived + n }, true)).1 := by
      simp only [stepFrame]
      split <;> (rename_i h; rw [h])
    rw [key]
    split
    · rcases savePayload_eq cf { s with trafficReceived := s.trafficReceived + n } g with h | ⟨h1, h2⟩
      · rw [h]
      · rw [h2]
    · rfl
  | store g =>
    left
    unfold stepFrame
    simp only
    cases hv : g.verify cf.crypto with
    | panic => rfl
    | err e => rfl
    | ok =>
      simp only
      have : ∀ s : GState, (storeLocked s g).1.timers = s.timers := by
        intro s; unfold storeLocked; split <;> (try split) <;> rfl
      have := this { s with timerlist := s.timerlist ++ [clk.second] }
      split <;> (rename_i h; rw [h] at this; exact this)
  | storeBl g =>
    left
    simp only [stepFrame, storeBlacklist]
    split <;> (try unfold addBlacklist) <;> (try split) <;> rfl
  | storeNote g => left; simp only [stepFrame, storeNote, noteInitConverge]; split <;> (try split) <;> rfl
  | sendPeers g => left; simp only [stepFrame, sendToGossipers]; split <;> rfl
  | sign g =>
    left
    unfold stepFrame signStatement
    simp only
    cases generateFRAG cf g <;> rfl
  | fragStore g =>
    left
    simp only [stepFrame, readAndStore]
    split <;> (try dsimp only) <;> (try split) <;> rfl
  | fragGen g =>
    left
    unfold stepFrame
    simp only
    split <;> rfl
  | fullNote => left; simp only [stepFrame, noteConverge]; split <;> rfl
  | notify n x => left; simp only [stepFrame, notificationHandler]; split <;> rfl
  | request n x => left; simp only [stepFrame, requestHandler]; split <;> rfl
  | save => left; simp only [stepFrame, save]; split <;> rfl
  | arm g => right; exact ⟨g, rfl, rfl⟩
  | _ => left; rfl

end CTng
