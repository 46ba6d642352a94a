import Verif.Model.GenFiles
/-
`Map_all` on the file system.
-/
set_option autoImplicit false

namespace CTng
namespace FileTree
open Wire Gen

section
variable (S : OS) {L : Lib} (F : RsaForm L) (K : KeyLib L) (ips : IPs)

/-- Gen/IPmapping.go:173-186 `Map_local_to_IP_priv_config`: what it makes of the contents of the file -/
def privRewrite (k : Kind) (id : Int) : Option Str → Option Str × Bool :=
  match k with
  | .ca => rewriteConf caPrivZero dCAPriv (mapCAPriv ips id) caPrivJson
  | .logger => rewriteConf logPrivZero dLogPriv (mapLoggerPriv ips id) logPrivJson
  | .monitor => rewriteConf monPrivZero dMonPriv (mapMonitorPriv ips id) monPrivJson
  | .gossiper => rewriteConf gosPrivZero dGosPriv (mapGossiperPriv ips id) gosPrivJson

/-- Gen/IPmapping.go:188-201 `Map_local_to_IP_public_config` -/
def pubRewrite (k : Kind) : Option Str → Option Str × Bool :=
  match k with
  | .ca => rewriteConf pubConfZero dPubConf (mapPubConf ips) pubConfJson
  | .logger => rewriteConf pubConfZero dPubConf (mapPubConf ips) pubConfJson
  | .monitor => rewriteConf monPubZero dMonPub (mapMonPub ips) monPubJson
  | .gossiper => rewriteConf gosPubZero dGosPub (mapGosPub ips) gosPubJson

/-- Gen/IPmapping.go:79-398: a file is read, mapped and written to where it was; `false`: the process has ended before writing. The
error of `WriteData` is dropped. -/
def rewriteAt (fs : FS) (path : Str) (f : Option Str → Option Str × Bool) : FS × Bool :=
  let r := f (readByte S fs path)
  if r.2 then ((writeData S fs path r.1).1, true) else (fs, false)

/-- Gen/IPmapping.go:404-409, 415-420, 426-431, 437-442: the three files of a process, by the names `Map_all` gives them -/
def mapEntity (k : Kind) (fs : FS) (i : Nat) : FS × Bool :=
  let p := k.dir ++ go!"/" ++ itoa (i + 1) ++ go!"/" ++ k.entity
  let a := rewriteAt S fs (p ++ go!"_private_config.json") (privRewrite ips k ((i : Int) + 1))
  if a.2 then
    let b := rewriteAt S a.1 (p ++ go!"_public_config.json") (pubRewrite ips k)
    if b.2 then rewriteAt S b.1 (p ++ go!"_crypto_config.json") (rewriteCrypto F K ips ((i : Int) + 1)) else b
  else a

/-- The loops of Gen/IPmapping.go:400-444 -/
def mapKindTree (k : Kind) (num : Nat) (fs : FS) : FS × Bool :=
  (List.range num).foldl (fun acc i => if acc.2 then mapEntity S F K ips k acc.1 i else acc) (fs, true)

/-- Gen/IPmapping.go:400-444 `Map_all` on the file system, and whether it came to its end -/
def mapTree (numCA numL numMG : Nat) (fs : FS) : FS × Bool :=
  let a := mapKindTree S F K ips .ca numCA fs
  if a.2 then
    let b := mapKindTree S F K ips .logger numL a.1
    if b.2 then
      let c := mapKindTree S F K ips .monitor numMG b.1
      if c.2 then mapKindTree S F K ips .gossiper numMG c.1 else c
    else b
  else a

end
end FileTree
end CTng
