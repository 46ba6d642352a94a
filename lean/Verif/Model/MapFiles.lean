import Verif.Model.Config
/-
Gen/IPmapping.go on files: the table of addresses as JSON and `Map_all` over the files of a deployment. Writing to the disk
succeeds (its errors are dropped by the code); what is printed is left out.
-/
set_option autoImplicit false

namespace CTng
namespace Wire
open Gen

/-! ### The table -/

/-- encode.go `mapEncoder` for `map[int]string`: the keys are written in decimal and sorted as strings. -/
def jIntMap (m : GoMap Int Str) : Json := jMap .str (GoMap.empty.assignAll (m.entries.map fun e => (itoaInt e.1, e.2)))

/-- `strconv.ParseInt(s, 10, 64)`, without the value it returns with an error -/
def parseInt (s : Str) : Option Int :=
  let n : Option Int :=
    match s with
    | 43 :: t => (atoi t).map Int.ofNat
    | 45 :: t => (atoi t).map fun n : Nat => -(n : Int)
    | t => (atoi t).map Int.ofNat
  n.bind fun n => if -2 ^ 63 ≤ n ∧ n < 2 ^ 63 then some n else none

/-- decode.go `object` into a `map[int]string`: a member whose name is no number is an error and is left out. -/
def dIntMap : Dec (GoMap Int Str)
  | _, .null => (.empty, true)
  | cur, .obj l => l.foldl (fun acc m =>
      match parseInt m.1 with
      | some k => let r := dStr [] m.2; (acc.1.set k r.1, acc.2 && r.2)
      | none => (acc.1, false)) (cur, true)
  | cur, _ => (cur, false)

/-- Gen/IPmapping.go:20-25 -/
def ipsJson (t : IPs) : Json :=
  .obj [(go!"monitor_ip_map", jIntMap t.monitor), (go!"gossiper_ip_map", jIntMap t.gossiper),
    (go!"logger_ip_map", jIntMap t.logger), (go!"ca_ip_map", jIntMap t.ca)]

/-- Gen/IPmapping.go:20-25 -/
def ipsNames : List Str := [go!"monitor_ip_map", go!"gossiper_ip_map", go!"logger_ip_map", go!"ca_ip_map"]

/-- Gen/IPmapping.go:20-25 -/
def dIPs : Dec IPs := dStruct ipsNames fun i t j =>
  match i with
  | 0 => ({ t with monitor := (dIntMap t.monitor j).1 }, (dIntMap t.monitor j).2)
  | 1 => ({ t with gossiper := (dIntMap t.gossiper j).1 }, (dIntMap t.gossiper j).2)
  | 2 => ({ t with logger := (dIntMap t.logger j).1 }, (dIntMap t.logger j).2)
  | _ => ({ t with ca := (dIntMap t.ca j).1 }, (dIntMap t.ca j).2)

/-- `var new_ip_json IP_Json` -/
def ipsZero : IPs := ⟨.empty, .empty, .empty, .empty⟩

/-- Gen/IPmapping.go:68-77 `Write_IP_Json_to_files`: the text of the file -/
def writeIPs (t : IPs) : Str := Json.marshalIndent [] (go!" ") (ipsJson t)

/-- Gen/IPmapping.go:56-66 `Read_IP_Json_from_files`: `none` is `log.Fatal`; the error of the decoder is dropped. -/
def readIPs : Option Str → Option IPs
  | none => none
  | some t => some (unmarshal ipsZero dIPs t).1

/-! ### One file -/

/-- util/IO.go:37-58 `WriteData`: the text of the file -/
def dataText (j : Json) : Str := Json.marshalIndent [] (go!"  ") j

/-- The functions of Gen/IPmapping.go:206-398: `LoadConfiguration`, the mapping, `WriteData`. `false`: the process has ended, with
`log.Fatal` or a panic, before anything was written; a file with `null` leaves a nil pointer. -/
def rewriteConf {α : Type} (z : α) (d : Dec α) (f : α → Option α) (enc : α → Json) (file : Option Str) : Option Str × Bool :=
  match loadConf z d file with
  | .running (some p) =>
    match f p with
    | some q => (some (dataText (enc q)), true)
    | none => (file, false)
  | _ => (file, false)

section
variable {L : Lib} (F : RsaForm L) (K : KeyLib L) (ips : IPs)

/-- Gen/IPmapping.go:79-171 `Map_local_to_IP_crypto_config`; an unreadable file gives a nil pointer, errors of the decoders are
dropped. -/
def rewriteCrypto (id : Int) (file : Option Str) : Option Str × Bool :=
  match file with
  | none => (file, false)
  | some t =>
    match mapCrypto K ips id ((confJson F).dec t) with
    | some s => (some ((confJson F).enc s), true)
    | none => (file, false)

/-- Gen/IPmapping.go:355-376 and 378-398 on the members of the file -/
def mapPubConf (p : PubConf) : Option PubConf := (mapRolePub ips ⟨p.cas, p.loggers⟩).map fun q => { p with cas := q.cas, loggers := q.loggers }

/-- Gen/IPmapping.go:315-334 -/
def mapMonPub (p : MonPub) : Option MonPub := (mapRolePub ips ⟨p.cas, p.loggers⟩).map fun q => { p with cas := q.cas, loggers := q.loggers }

/-- Gen/IPmapping.go:336-354 -/
def mapGosPub (p : GosPub) : Option GosPub :=
  (mapGossiperPub ips ⟨p.gossipers, p.signers⟩).map fun q => { p with gossipers := q.gossipers, signers := q.signers }

/-! ### The files of an entity -/

/-- The order of Gen/IPmapping.go:407-409: private, public, crypto. The process may end after the first or the second. -/
def rewriteThree (priv pub crypto : Option Str → Option Str × Bool) (t : Texts) : Texts × Bool :=
  let a := priv t.priv
  if a.2 then
    let b := pub t.pub
    if b.2 then
      let c := crypto t.crypto
      (⟨b.1, a.1, c.1⟩, c.2)
    else ({ t with priv := a.1 }, false)
  else (t, false)

/-- Gen/IPmapping.go:403-410 with 173-201 -/
def mapCAFiles (id : Int) : Texts → Texts × Bool :=
  rewriteThree (rewriteConf caPrivZero dCAPriv (mapCAPriv ips id) caPrivJson) (rewriteConf pubConfZero dPubConf (mapPubConf ips) pubConfJson)
    (rewriteCrypto F K ips id)

/-- Gen/IPmapping.go:414-421 -/
def mapLoggerFiles (id : Int) : Texts → Texts × Bool :=
  rewriteThree (rewriteConf logPrivZero dLogPriv (mapLoggerPriv ips id) logPrivJson)
    (rewriteConf pubConfZero dPubConf (mapPubConf ips) pubConfJson) (rewriteCrypto F K ips id)

/-- Gen/IPmapping.go:425-432 -/
def mapMonitorFiles (id : Int) : Texts → Texts × Bool :=
  rewriteThree (rewriteConf monPrivZero dMonPriv (mapMonitorPriv ips id) monPrivJson)
    (rewriteConf monPubZero dMonPub (mapMonPub ips) monPubJson) (rewriteCrypto F K ips id)

/-- Gen/IPmapping.go:436-443 -/
def mapGossiperFiles (id : Int) : Texts → Texts × Bool :=
  rewriteThree (rewriteConf gosPrivZero dGosPriv (mapGossiperPriv ips id) gosPrivJson)
    (rewriteConf gosPubZero dGosPub (mapGosPub ips) gosPubJson) (rewriteCrypto F K ips id)

/-! ### All files -/

/-- The four directories `ca_testconfig/` … : entry `i` holds the files of number `i+1`. -/
structure Disk where
  cas : List Texts
  loggers : List Texts
  monitors : List Texts
  gossipers : List Texts

/-- The loops of Gen/IPmapping.go:400-444; files beyond the end of the list do not exist. -/
def mapDirs (step : Int → Texts → Texts × Bool) (num : Nat) (l : List Texts) : List Texts × Bool :=
  (List.range num).foldl (fun acc (i : Nat) =>
    if acc.2 then
      let r := step ((i : Int) + 1) ((acc.1[i]?).getD ⟨none, none, none⟩)
      (acc.1.set i r.1, r.2)
    else acc) (l, true)

/-- Gen/IPmapping.go:400-444 `Map_all`: the files afterwards and whether it came to its end -/
def mapAllFiles (numCA numL numMG : Nat) (d : Disk) : Disk × Bool :=
  let a := mapDirs (mapCAFiles F K ips) numCA d.cas
  if a.2 then
    let b := mapDirs (mapLoggerFiles F K ips) numL d.loggers
    if b.2 then
      let c := mapDirs (mapMonitorFiles F K ips) numMG d.monitors
      if c.2 then
        let e := mapDirs (mapGossiperFiles F K ips) numMG d.gossipers
        (⟨a.1, b.1, c.1, e.1⟩, e.2)
      else ({ d with cas := a.1, loggers := b.1, monitors := c.1 }, false)
    else ({ d with cas := a.1, loggers := b.1 }, false)
  else ({ d with cas := a.1 }, false)

/-- Gen/Gen.go:338-420: the files `Generateall` writes -/
def diskOf (mmd mrd : Int) (d : Deployment L) : Disk :=
  ⟨d.cas.map (caTexts F mmd mrd), d.loggers.map (loggerTexts F mmd mrd), d.monitors.map (monitorTexts F mmd mrd),
    d.gossipers.map (gossiperTexts F mmd mrd)⟩

end
end Wire
end CTng
