import Verif.Props.Pipeline
/- Concrete cases for the client theorems (C49-C53, C77, C81-C84). -/
set_option autoImplicit false

namespace CTng.Ref
open CTng.Client

/-- The object as the gossipers G1 and G2 sign it together in the given period. -/
def endorse (g : GossipObj) (type : GType) (period : Str) : GossipObj :=
  let m := g.payload.p0 ++ g.payload.p1 ++ g.payload.p2
  { g with type := type, period := period, signer := [], signers := [go!"G1", go!"G2"],
           sig := ⟨(ThresholdSig.toStr lib ⟨[go!"G1", go!"G2"], some (lib.blsAggregate [lib.blsSign (go!"G1") m, lib.blsSign (go!"G2") m])⟩).getD [], []⟩ }

def y (j : Nat) : Cert := issuedCert xlib caConf caRoot (leafKey 0) 1 j

/-- L1's tree head and proofs for the certificates 1 and 2 of C1, built at `t`. -/
def logRound (t : Instant) : Option (GossipObj × List POI) :=
  (loggerRun xlib logConf initLogger [.precert (y 0).raw, .precert (y 1).raw]).bind fun ls =>
    (loggerStep xlib logConf ls (.finish t)).bind fun ls' =>
      (ls'.sthStorage.get (padInt 2 (t.minute + 1))).map fun g => (g, ls'.sentPOIs.map (·.2))

/-- The certificates C1 signs after receiving the tree head and the proofs. -/
def finals (g : GossipObj) (ps : List POI) : List Cert :=
  match caRun xlib caConf caRoot caInit (.start (leafKey 0) :: .sth g :: ps.map .poi) with
  | some s => signAll xlib lib.sha256 caRoot s
  | none => []

/-- C1's revocation of certificate 2, made at `t`. -/
def revRound (t : Instant) : Option GossipObj :=
  (caRun xlib caConf caRoot caInit [.revoke 2, .finish t []]).bind fun s => s.revStorage.get (caNextPeriod t)

/-- A monitor's update of minute 35: L1's tree head, C1's revocation. -/
def update35 (g r : GossipObj) : ClientUpdate :=
  { sths := [endorse g .STH_FULL (go!"35")], revs := [endorse r .REV_FULL (go!"35")], pomCONs := [], pomACCs := [],
    monitorID := go!"M1", period := go!"35" }

/-- Two statements signed by L1. -/
def conflict : GossipObj :=
  { sth with type := .CON_INIT, period := go!"35", payload := ⟨go!"L1", go!"L1rootA7", go!"L1rootB7"⟩,
             sig := ⟨rsaStr (go!"L1") (go!"L1rootA7"), rsaStr (go!"L1") (go!"L1rootB7")⟩ }

def m1 : CryptoConfig lib := conf (go!"M1")

/-- C77, C50, C51, C52: the whole way in minute 34: certificate 1 is accepted, the revoked certificate 2 is not. -/
example : ((logRound at34).bind fun x => (revRound at34).map fun r =>
    let z := handleUpdate xlib m1 true (update35 x.1 r) initClient
    (z.1, (finals x.1 x.2).map fun f => (f.rid xlib, verifyCTngExt xlib m1 z.2 f))) =
    some (.accepted, [(1, .accept), (2, .reject)]) := by decide +kernel

/-- C77 in minute 4: the same round, the tree head recorded under "05"; no certificate is accepted. -/
example : ((logRound at04).bind fun x => (revRound at34).map fun r =>
    let u := { update35 x.1 r with sths := [endorse x.1 .STH_FULL (go!"05")] }
    let z := handleUpdate xlib m1 true u initClient
    (z.1, z.2.sthDB.keys, (finals x.1 x.2).map fun f => (f.rid xlib, verifyCTngExt xlib m1 z.2 f))) =
    some (.accepted, [go!"L1@05"], [(1, .reject), (2, .reject)]) := by decide +kernel

/-- C49: an update with a tree head that lost its signature is rejected; after it nothing is accepted. The revocation
before it was applied. -/
example : ((logRound at34).bind fun x => (revRound at34).map fun r =>
    let bad := { update35 x.1 r with sths := [{ endorse x.1 .STH_FULL (go!"35") with sig := ⟨[], []⟩ }] }
    let z := runUpdates xlib m1 true [bad, update35 x.1 r, emptyUpdate] initClient
    (z.1, z.2.crvDB.keys, z.2.sthDB.keys)) =
    some ([.rejected, .blocked, .blocked], [go!"C1"], []) := by decide +kernel

/-- C49: two revocations, the second of which does not verify. -/
example : ((revRound at34).map fun r =>
    let u := { emptyUpdate with revs := [endorse r .REV_FULL (go!"35"), { endorse r .REV_FULL (go!"35") with sig := ⟨[], []⟩ }] }
    let z := handleUpdate xlib m1 true u initClient
    (z.1, (z.2.crvDB.get (go!"C1")).map fun v => v.test 2)) = some (.rejected, some true) := by decide +kernel

/-- C51: a client without a vector of C1 panics on a good certificate; so does one that meets an entry whose signature names
nobody. -/
example : ((logRound at34).bind fun x => (revRound at34).map fun r =>
    let z := handleUpdate xlib m1 true { update35 x.1 r with revs := [] } initClient
    let w := handleUpdate xlib m1 true (update35 x.1 r) initClient
    let stray : LoggerInfo := ⟨{ x.1 with signer := go!"L9", sig := ⟨rsaStr (go!"L9") (go!"m"), []⟩ }, ⟨none, [], [], []⟩⟩
    ((finals x.1 x.2).map (verifyCTngExt xlib m1 z.2), decide (stray.sth.verify m1 = .panic),
      (finals x.1 x.2).map fun f => verifyCTngExt xlib m1 w.2
        { f with extensions := [(oidCTng, xlib.encExt ⟨1, (f.parseExt xlib).loggers ++ [stray]⟩)] })) =
    some ([.panic, .panic], true, [.panic, .panic]) := by decide +kernel

/-- C51: bits stored behind the end of the vector do not count. -/
example : ((logRound at34).bind fun x => (revRound at34).map fun r =>
    let z := handleUpdate xlib m1 true (update35 x.1 r) initClient
    let w := { z.2 with crvDB := z.2.crvDB.set (go!"C1") ⟨1, 6⟩ }
    ((finals x.1 x.2).map fun f => verifyCTngExt xlib m1 w f)) = some [.accept, .accept] := by decide +kernel

/-- C52: certificate 1 is revoked in a second update; the client still accepts it. -/
example : ((logRound at34).bind fun x => (revRound at34).map fun r =>
    let later := generateRevocation xlib caConf { caInit with crv := ⟨((BitSet.new crvSize).set 2), .own ((BitSet.new crvSize).set 2)⟩ } (go!"36") false
    let z := runUpdates xlib m1 true [update35 x.1 r, { emptyUpdate with revs := (later.map fun r => endorse r .REV_FULL (go!"36")).toList }] initClient
    (z.1, (finals x.1 x.2).map (verifyCTngExt xlib m1 z.2))) =
    some ([.accepted, .accepted], [.accept, .reject]) := by decide +kernel

/-- C53: with a proof against L1 the certificate is rejected; with the unsigned field renamed it is accepted. -/
example : ((logRound at34).bind fun x => (revRound at34).map fun r =>
    let z := runUpdates xlib m1 true [update35 x.1 r, { emptyUpdate with pomCONs := [conflict] }] initClient
    (z.1, z.2.pomDB.keys, (finals x.1 x.2).map (verifyCTngExt xlib m1 z.2),
      (finals x.1 x.2).map fun f => verifyCTngExt xlib m1 z.2
        { f with extensions := [(oidCTng, xlib.encExt ⟨1, (f.parseExt xlib).loggers.map (·.claim (go!"X"))⟩)] })) =
    some ([.accepted, .accepted], [go!"L1"], [.reject, .reject], [.accept, .accept]) := by decide +kernel

/-- C82: L1's endorsed tree head, filed as a proof, makes L1 a misbehaving logger. -/
example : ((logRound at34).bind fun x => (revRound at34).map fun r =>
    let z := runUpdates xlib m1 true [update35 x.1 r, { emptyUpdate with pomACCs := [endorse x.1 .STH_FULL (go!"35")] }] initClient
    (z.1, z.2.pomDB.keys, (finals x.1 x.2).map (verifyCTngExt xlib m1 z.2))) =
    some ([.accepted, .accepted], [go!"L1"], [.reject, .reject]) := by decide +kernel

/-- C83: a tree head signed by L1 alone is recorded. -/
example : ((logRound at34).map fun x =>
    let z := handleUpdate xlib m1 true { emptyUpdate with sths := [x.1] } initClient
    (decide (x.1.type = .STH_INIT), z.1, z.2.sthDB.keys)) = some (true, .accepted, [go!"L1@35"]) := by decide +kernel

/-- C84: certificate 1 with another key, serial number and signature. -/
example : ((logRound at34).bind fun x => (revRound at34).map fun r =>
    let z := handleUpdate xlib m1 true (update35 x.1 r) initClient
    (finals x.1 x.2).map fun f =>
      verifyCTngExt xlib m1 z.2 { f with publicKey := go!"mallory", subjectKeyId := go!"m", serial := 7, signature := [], raw := [] }) =
    some [.accept, .reject] := by decide +kernel

/-- C86: a proof without content in L1's name arrives before L1's own proofs; certificate 1 carries it and is rejected. -/
example : ((logRound at34).bind fun x => (revRound at34).map fun r =>
    let z := handleUpdate xlib m1 true (update35 x.1 r) initClient
    let fake : POI := ⟨none, (y 0).subjectKeyId, go!"C1", go!"L1"⟩
    (finals x.1 (fake :: x.2)).map fun f => ((f.parseExt xlib).loggers.map (·.poi == fake), verifyCTngExt xlib m1 z.2 f)) =
    some [([true], .reject), ([false], .reject)] := by decide +kernel

/-- The JSON files as codecs of entry lists. -/
def cMap : Codec (List (Str × Str)) := Codec.list (Codec.pair Codec.str Codec.str)

/-- A map with the given entries; later ones win. -/
def ofEntries (l : List (Str × Str)) : GoMap Str Str := l.foldl (fun m e => m.set e.1 e.2) .empty

theorem ofEntries_get (l : List (Str × Str)) (hl : (l.map (·.1)).Nodup) (k v : Str) :
    (ofEntries l).get k = some v ↔ (k, v) ∈ l := by
  have key : ∀ (l : List (Str × Str)) (m : GoMap Str Str), (l.map (·.1)).Nodup → (∀ e ∈ l, m.get e.1 = none) →
      ∀ v, (l.foldl (fun m e => m.set e.1 e.2) m).get k = some v ↔ (k, v) ∈ l ∨ m.get k = some v := by
    intro l
    induction l with
    | nil => intro m _ _ v; simp
    | cons e t ih =>
      intro m hn hm v
      simp only [List.map_cons, List.nodup_cons] at hn
      rw [List.foldl_cons, ih (m.set e.1 e.2) hn.2 ?_]
      · rw [GoMap.get_set]
        by_cases hk : k = e.1
        · subst hk
          have hno : ∀ w, (e.1, w) ∉ t := fun w hw => hn.1 (List.mem_map_of_mem (f := (·.1)) hw)
          simp only [if_true, Option.some.injEq, hno, false_or, List.mem_cons, hm e List.mem_cons_self, or_false, Prod.ext_iff, true_and, reduceCtorEq]
          exact eq_comm
        · rw [if_neg hk]
          simp only [List.mem_cons, Prod.ext_iff, hk, false_and, false_or]
      · intro e' he'
        rw [GoMap.get_set, if_neg]
        · exact hm e' (List.mem_cons_of_mem _ he')
        · intro h
          exact hn.1 (h ▸ List.mem_map_of_mem (f := (·.1)) he')
  have := key l .empty hl (by simp) v
  simpa [ofEntries] using this

def disk : DiskLib where
  encStr m := cMap.enc m.entries
  decStr s := (cMap.decode s).map ofEntries
  encBytes m := cMap.enc m.entries
  decBytes s := (cMap.decode s).map ofEntries
  encObj _ := []

/-- The contract of C81 can be met. -/
theorem diskLaws : DiskLaws disk := by
  have h : ∀ m : GoMap Str Str, ∃ m', (cMap.decode (cMap.enc m.entries)).map ofEntries = some m' ∧ ∀ k, m'.get k = m.get k := by
    intro m
    refine ⟨ofEntries m.entries, by simp [Codec.decode_enc], fun k => ?_⟩
    have : ∀ v, (ofEntries m.entries).get k = some v ↔ m.get k = some v := by
      intro v
      rw [ofEntries_get _ m.nodup, GoMap.get_eq_some_iff]
    cases hm : m.get k with
    | none =>
      cases ho : (ofEntries m.entries).get k with
      | none => rfl
      | some v => rw [(this v).1 ho] at hm; cases hm
    | some v => exact (this v).2 hm
  exact ⟨fun m _ => h m, fun m _ => h m⟩

/-- C81: after a restart the certificates are checked as before, but the proof against L1 is forgotten. -/
example : ((logRound at34).bind fun x => (revRound at34).bind fun r =>
    let z := runUpdates xlib m1 true [update35 x.1 r, { emptyUpdate with pomCONs := [conflict] }] initClient
    (Client.restart xlib disk (Client.save xlib disk z.2)).map fun s' =>
      ((finals x.1 x.2).map (verifyCTngExt xlib m1 z.2), (finals x.1 x.2).map (verifyCTngExt xlib m1 s'), s'.pomDB.keys)) =
    some ([.reject, .reject], [.accept, .reject], []) := by decide +kernel

end CTng.Ref
