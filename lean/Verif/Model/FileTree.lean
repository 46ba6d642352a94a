import Verif.Base.GoMap
import Verif.Base.Str
/-
The file system as the project uses it: util/IO.go:18-124 and the functions that call it.

Simplifications: no permissions, no symbolic links, no full disk, no other process; a `..` in a path is resolved by dropping the
component before it (the kernel also requires that component to exist); a file opened with a slash at the end of its name
is opened as without it.
-/
set_option autoImplicit false

namespace CTng
namespace FileTree

/-- A directory or a file with its content. -/
inductive Node where
  | dir
  | file (content : Str)
  deriving DecidableEq

/-- A resolved path: the names from the root. -/
abbrev Path := List Str

/-- The nodes of the file system by path. -/
abbrev FS := GoMap Path Node

/-- A path cut at its slashes. -/
def splitSlash : Str → List Str
  | [] => [[]]
  | c :: t =>
    match splitSlash t with
    | [] => [[c]]
    | h :: r => if c = 47 then [] :: h :: r else (c :: h) :: r

/-- One component of a path. -/
def walk (acc : Path) (c : Str) : Path :=
  if c = [] ∨ c = go!"." then acc else if c = go!".." then acc.dropLast else acc ++ [c]

/-- The path a string stands for in the working directory `cwd`. -/
def resolve (cwd : Path) (s : Str) : Path := (splitSlash s).foldl walk (if s.head? = some 47 then [] else cwd)

/-- Whether a path string ends in a name, not in `.` or `..`. -/
def endsInName (s : Str) : Bool :=
  match ((splitSlash s).filter fun c => c ≠ []).getLast? with
  | none => false
  | some c => c ≠ go!"." ∧ c ≠ go!".."

/-- A name of a directory entry. -/
def Name (n : Str) : Prop := n ≠ [] ∧ n ≠ go!"." ∧ n ≠ go!".." ∧ (47 : UInt8) ∉ n

/-- The operating system: working directory, and the order in which the entries of a directory are listed. -/
structure OS where
  cwd : Path
  ls : FS → Path → List Str

/-- A listing has every entry once. -/
structure OS.Laws (S : OS) : Prop where
  mem : ∀ fs p n, n ∈ S.ls fs p ↔ fs.has (p ++ [n]) = true
  nodup : ∀ fs p, (S.ls fs p).Nodup

/-- A file system: the root is a directory, the parent of every node is a directory, entries have names. -/
structure FS.WF (fs : FS) : Prop where
  root : fs.get [] = some .dir
  parent : ∀ p n, fs.has (p ++ [n]) = true → fs.get p = some .dir
  name : ∀ p n, fs.has (p ++ [n]) = true → Name n

variable (S : OS)

/-- os.Remove: a file, or a directory without entries. -/
def remove (fs : FS) (s : Str) : FS × Bool :=
  let p := resolve S.cwd s
  if !endsInName s ∨ p = [] then (fs, false)
  else
    match fs.get p with
    | none => (fs, false)
    | some (.file _) => (fs.erase p, true)
    | some .dir => if (S.ls fs p).isEmpty then (fs.erase p, true) else (fs, false)

/-- util/IO.go:101-116, the loop over the entries of the directory `s`; `del` is the recursive call. An entry comes with whether
it was a directory when the directory was read. -/
def deleteLoop (del : FS → Str → FS × Bool) (s : Str) : FS → List (Str × Bool) → FS × Bool
  | fs, [] => (fs, true)
  | fs, (n, isDir) :: t =>
    let r := if isDir then del fs (s ++ go!"/" ++ n) else remove S fs (s ++ go!"/" ++ n)
    if r.2 then deleteLoop del s r.1 t else (r.1, false)

/-- util/IO.go:86-124 `DeleteFilesAndDirectories`; the flag is false where the function returns an error. `n` bounds the depth of
the recursion. Opening succeeds for files too, but reading their entries fails. -/
def deleteN : Nat → FS → Str → FS × Bool
  | 0, fs, _ => (fs, false)
  | n + 1, fs, s =>
    let p := resolve S.cwd s
    match (if s = [] then none else fs.get p) with
    | some .dir =>
      let r := deleteLoop S (deleteN n) s fs ((S.ls fs p).map fun m => (m, fs.get (p ++ [m]) = some .dir))
      if r.2 then remove S r.1 s else (r.1, false)
    | _ => (fs, false)

/-- The length of the longest path. -/
def depth (fs : FS) : Nat := (fs.keys.map List.length).foldl Nat.max 0

def deleteAll (fs : FS) (s : Str) : FS × Bool := deleteN S (depth fs + 1) fs s

/-- os.MkdirAll from the directory `d` down: none if a file is in the way. -/
def mkdirs : FS → Path → List Str → Option FS
  | fs, _, [] => some fs
  | fs, d, n :: t =>
    match fs.get (d ++ [n]) with
    | some .dir => mkdirs fs (d ++ [n]) t
    | some (.file _) => none
    | none => mkdirs (fs.set (d ++ [n]) .dir) (d ++ [n]) t

/-- util/IO.go:74-84 `CreateDir`: does nothing if the path exists or cannot be made. -/
def createDir (fs : FS) (s : Str) : FS :=
  let p := resolve S.cwd s
  if fs.has p then fs
  else
    match mkdirs fs [] p with
    | none => fs
    | some fs' => fs'

/-- Whether a file can be written at `p`: its parent is a directory and there is no directory at `p`. -/
def writable (fs : FS) (p : Path) : Prop := p ≠ [] ∧ fs.get p.dropLast = some .dir ∧ fs.get p ≠ some .dir

instance (fs : FS) (p : Path) : Decidable (writable fs p) := inferInstanceAs (Decidable (_ ∧ _))

/-- os.Create and os.WriteFile. -/
def put (fs : FS) (s : Str) (content : Str) : FS × Bool :=
  let p := resolve S.cwd s
  if writable fs p then (fs.set p (.file content), true) else (fs, false)

/-- util/IO.go:60-72 `CreateFile`. -/
def createFile (fs : FS) (s : Str) : FS := if fs.has (resolve S.cwd s) then fs else (put S fs s []).1

/-- util/IO.go:37-58 `WriteData`; `json` is the result of MarshalIndent. A file that cannot be encoded is still created. -/
def writeData (fs : FS) (s : Str) (json : Option Str) : FS × Bool :=
  let r := if fs.has (resolve S.cwd s) then (fs, true) else put S fs s []
  if r.2 then
    match json with
    | none => (r.1, false)
    | some b => put S r.1 s b
  else r

/-- util/IO.go:18-33 `ReadByte`: opening a directory succeeds, reading it fails. -/
def readByte (fs : FS) (s : Str) : Option Str :=
  match fs.get (resolve S.cwd s) with
  | some (.file b) => some b
  | _ => none

/-- The paths of a monitor, monitor/types.go:299-302 `InitializeMonitorStorage`. -/
structure StoragePaths where
  dir : Str
  crv : Str

/-- monitor/types.go:299-302 `InitializeMonitorStorage`. -/
def monitorPaths (filepath storageID : Str) : StoragePaths :=
  ⟨filepath ++ go!"/" ++ storageID ++ go!"/", filepath ++ go!"/" ++ storageID ++ go!"/" ++ go!"CRV.json"⟩

/-- monitor/types.go:114-132 `SaveStorage` on files; `update` and `crv` are the encoded client update and revocation vectors. The
results of WriteData are not looked at and the function returns nil. -/
def saveStorage (P : StoragePaths) (fs : FS) (period update crv : Str) : FS × Bool :=
  let newdir := P.dir ++ go!"/Period_" ++ period
  let fs := createDir S fs newdir
  let path := newdir ++ go!"/ClientUpdate.json"
  let fs := createFile S fs path
  let fs := (writeData S fs path (some update)).1
  ((writeData S fs P.crv (some crv)).1, true)

/-- monitor/types.go:304-310 `CleanUpMonitorStorage` and gossiper/Interface.go:641-647 `CleanUpGossiperStorage`: an error is only
printed. -/
def cleanUp (fs : FS) (dir : Str) : FS := (deleteAll S fs dir).1

end FileTree
end CTng
