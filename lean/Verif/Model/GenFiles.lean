import Verif.Model.FileTree
import Verif.Model.MapFiles
/-
Where `Generateall` puts the files of a deployment, and where the programs look for them.
-/
set_option autoImplicit false

namespace CTng
namespace FileTree
open Wire

/-- The four kinds of processes of a deployment. -/
inductive Kind where
  | ca
  | logger
  | monitor
  | gossiper
  deriving DecidableEq, Repr

/-- Gen/Gen.go:328, 336, 383, 402: the directory of the processes of a kind -/
def Kind.dir : Kind → Str
  | .ca => go!"ca_testconfig"
  | .logger => go!"logger_testconfig"
  | .monitor => go!"monitor_testconfig"
  | .gossiper => go!"gossiper_testconfig"

/-- Gen/Gen.go:352, 368, 393, 419: how the names of the files begin -/
def Kind.entity : Kind → Str
  | .ca => go!"CA"
  | .logger => go!"Logger"
  | .monitor => go!"Monitor"
  | .gossiper => go!"Gossiper"

/-- The files of the processes of a kind, in the order of their numbers. -/
def Kind.texts (d : Disk) : Kind → List Texts
  | .ca => d.cas
  | .logger => d.loggers
  | .monitor => d.monitors
  | .gossiper => d.gossipers

variable (S : OS)

/-- os.Mkdir; its error is dropped by Gen/Gen.go. -/
def mkdir (fs : FS) (s : Str) : FS :=
  let p := resolve S.cwd s
  if p ≠ [] ∧ fs.get p.dropLast = some .dir ∧ fs.has p = false then fs.set p .dir else fs

/-- Gen/Gen.go:226-237 `write_all_configs_to_file`: errors of the encoder (`none`, which leaves an empty file) and of the disk are
dropped. -/
def writeConfigs (fs : FS) (filepath entity : Str) (t : Texts) : FS :=
  let fs := (put S fs (filepath ++ entity ++ go!"_public_config.json") (t.pub.getD [])).1
  let fs := (put S fs (filepath ++ entity ++ go!"_private_config.json") (t.priv.getD [])).1
  (put S fs (filepath ++ entity ++ go!"_crypto_config.json") (t.crypto.getD [])).1

/-- Gen/Gen.go:338-353, 355-369, 385-394, 404-420: the loops over the processes of a kind, from number `i + 1` on -/
def writeKind (cfg : Str) (r : Kind) : FS → Nat → List Texts → FS
  | fs, _, [] => fs
  | fs, i, t :: rest =>
    let fs := mkdir S fs (cfg ++ r.dir ++ go!"/" ++ itoa (i + 1))
    writeKind cfg r (writeConfigs S fs (cfg ++ r.dir ++ go!"/" ++ itoa (i + 1) ++ go!"/") r.entity t) (i + 1) rest

/-- Gen/Gen.go:302-421 `Generateall` on the file system. `d` is what is in the files (`Wire.diskOf`), `cfg` is `config_path`: it is
not put before the names of the four directories. -/
def generateTree (cfg : Str) (fs : FS) (d : Disk) : FS :=
  let fs := mkdir S fs Kind.ca.dir
  let fs := mkdir S fs Kind.logger.dir
  let fs := writeKind S cfg .ca fs 0 d.cas
  let fs := writeKind S cfg .logger fs 0 d.loggers
  let fs := mkdir S fs Kind.monitor.dir
  let fs := writeKind S cfg .monitor fs 0 d.monitors
  let fs := mkdir S fs Kind.gossiper.dir
  writeKind S cfg .gossiper fs 0 d.gossipers

/-- The files a program opens for the process `id`. With the empty prefix: Gen/Gen.go:424-454 `InitializeOneEntity` and
Gen/IPmapping.go:400-444 `Map_all`; with the prefix `../`: tests/networktests/Test1/Test1.go:18-60 and the same functions of
Test2 and Test3. -/
def openConfigs (fs : FS) (pre : Str) (r : Kind) (id : Str) : Texts :=
  let p := pre ++ r.dir ++ go!"/" ++ id ++ go!"/" ++ r.entity
  ⟨readByte S fs (p ++ go!"_public_config.json"), readByte S fs (p ++ go!"_private_config.json"),
    readByte S fs (p ++ go!"_crypto_config.json")⟩

end FileTree
end CTng
