import Verif.Model.CryptoIO
import Verif.Model.Util
/- Model of Gen/Gen.go and Gen/IPmapping.go. Timing parameters (MMD, MRD, waiting times), HTTP versions and the writing of
files are left out: a configuration file is the value written to it. -/
set_option autoImplicit false

namespace CTng.Gen
variable {L : Lib}

/-- Gen/Gen.go:17-20 -/
def prefixCA : Str := go!"localhost:6"
def prefixLogger : Str := go!"localhost:7"
def prefixMonitor : Str := go!"localhost:8"
def prefixGossiper : Str := go!"localhost:9"

/-- Gen/Gen.go:21-24 -/
def portCA : Str := go!"6"
def portLogger : Str := go!"7"
def portMonitor : Str := go!"8"
def portGossiper : Str := go!"9"

/-- Gen/Gen.go:27-37 `Port_Postfix` -/
def portPostfix (key : Nat) : Str :=
  if key < 10 then go!"00" ++ itoa key
  else if key < 100 then go!"0" ++ itoa key
  else if key < 1000 then itoa key
  else []

/-- Gen/Gen.go:70-86 `Generate_all_list`, one list -/
def urlList (pre : Str) (n : Nat) : List Str := (List.range n).map fun i => pre ++ portPostfix i

/-- Gen/Gen.go:39-68 `GenerateCryptoconfig_map`, the value for one entity before the keys are filled in; and the key filling
of `Generateall` (Gen/Gen.go:337-345). -/
def cryptoFor (totalMG threshold : Nat) (self : Str) (rsaPubs : GoMap Str L.RsaPub) (rsaSec : L.RsaPriv)
    (blsPubs : GoMap Str Str) (blsSec : Str) : StoredConfig L :=
  { selfID := self, threshold := threshold, n := totalMG, hashScheme := 4, signScheme := go!"rsa", thresholdScheme := go!"bls",
    signPublicMap := rsaPubs, signSecretKey := rsaSec, thresholdPublicMap := blsPubs, thresholdSecretKey := blsSec }

/-- CA/types.go:58-65 -/
structure CAPriv where
  signer : Str
  port : Str
  loggers : List Str
  monitors : List Str
  gossipers : List Str
  certPerPeriod : Nat
  deriving DecidableEq, Repr

/-- Logger/Types.go:24-30 -/
structure LoggerPriv where
  signer : Str
  port : Str
  cas : List Str
  monitors : List Str
  gossipers : List Str
  deriving DecidableEq, Repr

/-- monitor/types.go:58-65 -/
structure MonitorPriv where
  cas : List Str
  loggers : List Str
  signer : Str
  gossiperURL : Str
  inboundPort : Str
  port : Str
  deriving DecidableEq, Repr

/-- gossiper/types.go:21-25 -/
structure GossiperPriv where
  connected : List Str
  ownerURL : Str
  port : Str
  deriving DecidableEq, Repr

/-- The URL lists of CA/types.go:50-56, Logger/Types.go:16-22, monitor/types.go:67-73 -/
structure RolePub where
  cas : List Str
  loggers : List Str
  deriving DecidableEq, Repr

/-- gossiper/types.go:12-19 -/
structure GossiperPub where
  gossipers : List Str
  signers : List Str
  deriving DecidableEq, Repr

/-- Gen/Gen.go:91-107, one round of the loop of `GenerateCA_private_config_map`; `none` is the panic of `i % 0` and of an
index out of range. -/
def caPriv (Gs Ms Ls : List Str) (numCert i : Nat) : Option CAPriv :=
  match Ls[i % Ls.length]?, Ls[Ls.length - 1 - i % Ls.length]? with
  | some a, some b =>
    some { signer := prefixCA ++ portPostfix i, port := portCA ++ portPostfix i, loggers := [a, b], monitors := Ms,
           gossipers := Gs, certPerPeriod := numCert }
  | _, _ => none

/-- Gen/Gen.go:88-110 `GenerateCA_private_config_map` -/
def caPrivMap (Gs Ms Ls : List Str) (numCA numCert : Nat) : Option (GoMap Str CAPriv) :=
  ((List.range numCA).mapM (caPriv Gs Ms Ls numCert)).map fun l => GoMap.empty.assignAll (l.map fun p => (p.signer, p))

/-- Gen/Gen.go:112-131 `GenerateLogger_private_config_map` -/
def loggerPrivMap (Gs Ms Cs : List Str) (numLogger : Nat) : GoMap Str LoggerPriv :=
  GoMap.empty.assignAll ((List.range numLogger).map fun i =>
    (prefixLogger ++ portPostfix i,
      { signer := prefixLogger ++ portPostfix i, port := portLogger ++ portPostfix i, cas := Cs, monitors := Ms,
        gossipers := Gs }))

/-- Gen/Gen.go:175-191 `GenerateMonitor_private_config_map`; `none` is an index out of range. -/
def monitorPrivMap (Gs Ms Cs Ls : List Str) : Option (GoMap Str MonitorPriv) :=
  (Ms.zipIdx.mapM fun m => Gs[m.2]?.map fun g => (m.1,
      { cas := Cs, loggers := Ls, signer := m.1, gossiperURL := g, inboundPort := portGossiper ++ portPostfix m.2,
        port := portMonitor ++ portPostfix m.2 : MonitorPriv })).map GoMap.empty.assignAll

/-- Gen/Gen.go:203-224 `GenerateGossiper_private_config_map`; `none` is an index out of range. -/
def gossiperPrivMap (Gs Ms : List Str) : Option (GoMap Str GossiperPriv) :=
  (Gs.zipIdx.mapM fun g => Ms[g.2]?.map fun m => (g.1,
      { connected := (Gs.zipIdx.filter fun h => g.2 ≠ h.2).map (·.1), ownerURL := m,
        port := portGossiper ++ portPostfix g.2 : GossiperPriv })).map GoMap.empty.assignAll

/-- Gen/Gen.go:269-292 `BLS_gen_all`: the threshold of the key generation is the number of gossipers. On an error both maps
are nil: no public keys, and the zero secret for every gossiper. `none` is a panic. -/
def blsGenAll (K : KeyLib L) (Gs : List Str) : Option (GoMap Str Str × GoMap Str Str) :=
  match generateThresholdKeypairs K Gs Gs.length with
  | .panic => none
  | .err => some (serializePubs K .empty, GoMap.empty.assignAll (Gs.map fun g => (g, K.secSer K.blsZeroSec)))
  | .ok pubs privs =>
    some (serializePubs K pubs, GoMap.empty.assignAll (Gs.map fun g => (g, K.secSer ((privs.get g).getD K.blsZeroSec))))

/-- The files of one entity. -/
structure Files (L : Lib) (Pub Priv : Type) where
  pub : Pub
  priv : Priv
  crypto : StoredConfig L

/-- Everything `Generateall` writes; position `i` is folder `i+1`. -/
structure Deployment (L : Lib) where
  cas : List (Files L RolePub CAPriv)
  loggers : List (Files L RolePub LoggerPriv)
  monitors : List (Files L RolePub MonitorPriv)
  gossipers : List (Files L GossiperPub GossiperPriv)

/-- Gen/Gen.go:302-421 `Generateall`. `none` is a panic. (The maps of GenerateCryptoconfig_map are read at the URLs they were
filled with, so `cryptoFor` is used directly. A missing entry of a private configuration map would read as the zero
configuration; `none` here.) -/
def generateAll (K : KeyLib L) (numG threshold numL numCA numCert : Nat) : Option (Deployment L) := do
  let Gs := urlList prefixGossiper numG
  let Ms := urlList prefixMonitor numG
  let Cs := urlList prefixCA numCA
  let Ls := urlList prefixLogger numL
  let (rsaPubs, rsaPrivs) := rsaGen K (Gs ++ Ms ++ Cs ++ Ls)
  let (blsPubs, blsPrivs) ← blsGenAll K Gs
  let caP ← caPrivMap Gs Ms Ls numCA numCert
  let cas ← Cs.mapM fun u => do
    some ⟨⟨Cs, Ls⟩, ← caP.get u, cryptoFor numG threshold u rsaPubs (← rsaPrivs.get u) blsPubs []⟩
  let logP := loggerPrivMap Gs Ms Cs numL
  let loggers ← Ls.mapM fun u => do
    some ⟨⟨Cs, Ls⟩, ← logP.get u, cryptoFor numG threshold u rsaPubs (← rsaPrivs.get u) blsPubs []⟩
  let monP ← monitorPrivMap Gs Ms Cs Ls
  let monitors ← Ms.mapM fun u => do
    some ⟨⟨Cs, Ls⟩, ← monP.get u, cryptoFor numG threshold u rsaPubs (← rsaPrivs.get u) blsPubs []⟩
  let gosP ← gossiperPrivMap Gs Ms
  let gossipers ← Gs.mapM fun u => do
    some ⟨⟨Gs, Ms⟩, ← gosP.get u,
      cryptoFor numG threshold u rsaPubs (← rsaPrivs.get u) blsPubs ((blsPrivs.get u).getD [])⟩
  some ⟨cas, loggers, monitors, gossipers⟩

/-! ### Gen/IPmapping.go -/

/-- Gen/IPmapping.go:20-25 `IP_Json` -/
structure IPs where
  monitor : GoMap Int Str
  gossiper : GoMap Int Str
  logger : GoMap Int Str
  ca : GoMap Int Str

/-- `ip_json_config.X_ip_map[i]`: a missing entry reads as "". -/
def ipAt (m : GoMap Int Str) (i : Int) : Str := (m.get i).getD []

/-- Gen/IPmapping.go:27-54 `Generate_IP_Json_template` -/
def ipTemplate (numCA numL numMG : Nat) (caMask : Str) (caOff : Nat) (lMask : Str) (lOff : Nat) (mgMask : Str) (mgOff : Nat) : IPs :=
  let mk (n : Nat) (mask : Str) (off : Nat) : GoMap Int Str :=
    GoMap.empty.assignAll ((List.range n).map fun (i : Nat) => ((i : Int), mask ++ itoa (i + off)))
  { ca := mk numCA caMask caOff, logger := mk numL lMask lOff, monitor := mk numMG mgMask mgOff, gossiper := mk numMG mgMask mgOff }

/-- `s[len(s)-n:]`; `none` is the panic on a shorter string. -/
def lastN (n : Nat) (s : Str) : Option Str := if s.length < n then none else some (s.drop (s.length - n))

/-- `host + url[len(url)-5:]` -/
def withHost (host url : Str) : Option Str := (lastN 5 url).map (host ++ ·)

/-- A loop `for index, u := range list { list[index] = map[index] + u[len(u)-5:] }` -/
def mapList (hosts : GoMap Int Str) (l : List Str) : Option (List Str) :=
  l.zipIdx.mapM fun u => withHost (ipAt hosts u.2) u.1

/-- Gen/IPmapping.go:206-233 `Map_local_to_Monitor_IP_priv_config` -/
def mapMonitorPriv (ips : IPs) (mid : Int) (p : MonitorPriv) : Option MonitorPriv := do
  some { p with cas := ← mapList ips.ca p.cas, loggers := ← mapList ips.logger p.loggers,
                gossiperURL := ← withHost (ipAt ips.gossiper (mid - 1)) p.gossiperURL,
                signer := ← withHost (ipAt ips.monitor (mid - 1)) p.signer }

/-- `strconv.Atoi` with the error ignored (0), as in Gen/IPmapping.go:241: the argument has three characters, and a sign is
possible. -/
def atoiIgnore (s : Str) : Int :=
  match s with
  | 43 :: t => ((atoi t).getD 0 : Nat)
  | 45 :: t => -((atoi t).getD 0 : Nat)
  | t => ((atoi t).getD 0 : Nat)

/-- Gen/IPmapping.go:235-251 `Map_local_to_Gossiper_IP_priv_config`: peers by the last three digits of their port; the owner
gets the IP of the gossiper. -/
def mapGossiperPriv (ips : IPs) (mid : Int) (p : GossiperPriv) : Option GossiperPriv := do
  let conn ← p.connected.mapM fun u => do withHost (ipAt ips.gossiper (atoiIgnore (← lastN 3 u))) u
  some { p with connected := conn, ownerURL := ← withHost (ipAt ips.gossiper (mid - 1)) p.ownerURL }

/-- Gen/IPmapping.go:253-286 `Map_local_to_CA_IP_priv_config`: every logger gets the IP number MID-1. -/
def mapCAPriv (ips : IPs) (mid : Int) (p : CAPriv) : Option CAPriv := do
  some { p with signer := ← withHost (ipAt ips.ca (mid - 1)) p.signer,
                loggers := ← p.loggers.mapM (withHost (ipAt ips.logger (mid - 1))),
                monitors := ← mapList ips.monitor p.monitors, gossipers := ← mapList ips.gossiper p.gossipers }

/-- Gen/IPmapping.go:288-313 `Map_local_to_Logger_IP_priv_config`: the list of CAs is left alone. -/
def mapLoggerPriv (ips : IPs) (mid : Int) (p : LoggerPriv) : Option LoggerPriv := do
  some { p with signer := ← withHost (ipAt ips.logger (mid - 1)) p.signer,
                monitors := ← mapList ips.monitor p.monitors, gossipers := ← mapList ips.gossiper p.gossipers }

/-- Gen/IPmapping.go:315-334, 355-376, 378-398 (monitor, CA and logger public configurations) -/
def mapRolePub (ips : IPs) (p : RolePub) : Option RolePub := do
  some ⟨← mapList ips.ca p.cas, ← mapList ips.logger p.loggers⟩

/-- Gen/IPmapping.go:336-354 `Map_local_to_Gossiper_IP_pub_config` -/
def mapGossiperPub (ips : IPs) (p : GossiperPub) : Option GossiperPub := do
  some ⟨← mapList ips.gossiper p.gossipers, ← mapList ips.monitor p.signers⟩

/-- The table chosen by the first eleven characters of an id (Gen/IPmapping.go:85-106, 118-137, 146-165); `none` is the panic
of the slice or `log.Fatal`. -/
def hostsFor (ips : IPs) (id : Str) : Option (GoMap Int Str) :=
  if id.length < 11 then none
  else if id.take 11 = prefixCA then some ips.ca
  else if id.take 11 = prefixLogger then some ips.logger
  else if id.take 11 = prefixMonitor then some ips.monitor
  else if id.take 11 = prefixGossiper then some ips.gossiper
  else none

/-- The new key of an entry of a key map (Gen/IPmapping.go:113-138) -/
def mapKey (ips : IPs) (key : Str) : Option Str := do
  let hosts ← hostsFor ips key
  withHost (ipAt hosts (atoiIgnore (← lastN 3 key))) key

/-- Gen/IPmapping.go:79-171 `Map_local_to_IP_crypto_config`: load (ignoring errors), rename the own id and all keys, store. -/
def mapCrypto (K : KeyLib L) (ips : IPs) (id : Int) (s : StoredConfig L) : Option (StoredConfig L) := do
  let c := (newCryptoConfig K s).1
  let self ← withHost (ipAt (← hostsFor ips c.selfID) (id - 1)) c.selfID
  let sign ← c.signPublicMap.entries.mapM fun e => (mapKey ips e.1).map (·, e.2)
  let thr ← c.thresholdPublicMap.entries.mapM fun e => (mapKey ips e.1).map (·, e.2)
  some (newStored K { c with selfID := self, signPublicMap := GoMap.empty.assignAll sign,
                             thresholdPublicMap := GoMap.empty.assignAll thr })

/-- Gen/IPmapping.go:400-444 `Map_all` (for as many entities of each role as were generated) -/
def mapAll (K : KeyLib L) (ips : IPs) (d : Deployment L) : Option (Deployment L) := do
  let cas ← d.cas.zipIdx.mapM fun f => do
    some ⟨← mapRolePub ips f.1.pub, ← mapCAPriv ips (f.2 + 1) f.1.priv, ← mapCrypto K ips (f.2 + 1) f.1.crypto⟩
  let loggers ← d.loggers.zipIdx.mapM fun f => do
    some ⟨← mapRolePub ips f.1.pub, ← mapLoggerPriv ips (f.2 + 1) f.1.priv, ← mapCrypto K ips (f.2 + 1) f.1.crypto⟩
  let monitors ← d.monitors.zipIdx.mapM fun f => do
    some ⟨← mapRolePub ips f.1.pub, ← mapMonitorPriv ips (f.2 + 1) f.1.priv, ← mapCrypto K ips (f.2 + 1) f.1.crypto⟩
  let gossipers ← d.gossipers.zipIdx.mapM fun f => do
    some ⟨← mapGossiperPub ips f.1.pub, ← mapGossiperPriv ips (f.2 + 1) f.1.priv, ← mapCrypto K ips (f.2 + 1) f.1.crypto⟩
  some ⟨cas, loggers, monitors, gossipers⟩

end CTng.Gen
