import Verif.Model.Gossiper
import Verif.Model.FileTree
import Verif.Model.MapFiles
import Verif.Model.Logger
/-
What gossipers and loggers keep on disk while they run: the log of a gossiper (gossiper/Interface.go:80-116) and the
certificates of a logger (Logger/Types.go:170-179), both written with util/IO.go:37-58 `WriteData`.
-/
set_option autoImplicit false

namespace CTng
open FileTree Wire

/-! ### The log of a gossiper -/

/-- The digits without the zeros at their end. -/
def trimZeros (s : Str) : Str := (s.reverse.dropWhile (· = 48)).reverse

/-- gossiper/Interface.go:131-133 and encode.go `floatEncoder`: the text of util/helpers.go:108-113 ("05.000") parsed as a float
and written in the shortest way. A text that cannot be parsed gives 0; of the texts `ParseFloat` takes, only digits with at most
one point inside are considered. -/
def secondTok (s : Str) : Str :=
  let i := s.takeWhile (· ≠ 46)
  let f := s.drop (i.length + 1)
  match atoi i with
  | none => go!"0"
  | some n =>
    if f.all Json.isDigit then
      if trimZeros f = [] then itoa n else itoa n ++ 46 :: trimZeros f
    else go!"0"

/-- gossiper/types.go:88-106 -/
def logNames : List Str :=
  [go!"period", go!"converge_time", go!"converge_time_init", go!"total_traffic_received", go!"total_traffic_sent",
   go!"num_sth_init", go!"num_rev_init", go!"num_acc_init", go!"num_con_init", go!"num_sth_frag", go!"num_rev_frag",
   go!"num_acc_frag", go!"num_sth_full", go!"num_rev_full", go!"num_acc_full", go!"num_blacklist_perm", go!"total_time"]

/-- gossiper/types.go:88-106. The period is the number of `strconv.Atoi` (Interface.go:81), 0 on an error; a list to which
nothing was ever appended is nil. -/
def logEntryJson (e : LogEntry) : Json :=
  .obj (logNames.zip [.num (itoa ((atoi e.period).getD 0)), .str e.convergeTime, .str e.convergeTimeInit, jInt e.trafficReceived,
    jInt e.trafficSent, .num (itoa e.numSthInit), .num (itoa e.numRevInit), .num (itoa e.numAccInit), .num (itoa e.numConInit),
    .num (itoa e.numSthFrag), .num (itoa e.numRevFrag), .num (itoa e.numAccFrag), .num (itoa e.numSthFull),
    .num (itoa e.numRevFull), .num (itoa e.numAccFull), .num (itoa e.numBlacklist), jList (fun t => .num (secondTok t)) e.timerlist])

/-- gossiper/types.go:116, encode.go `mapEncoder`: the periods as decimal numbers, sorted as strings. -/
def logJson (m : GoMap Str LogEntry) : Json :=
  jMap logEntryJson (GoMap.empty.assignAll (m.entries.map fun e => (itoa ((atoi e.1).getD 0), e.2)))

section
variable {L : Lib}

/-- A gossiper and its disk. -/
structure GDisk where
  g : GState
  fs : FS

/-- gossiper/Interface.go:80-116 `Save` with the file write; `path` is `StorageDirectory + StorageFile`. The error of `WriteData`
is only printed. -/
def saveDisk (S : OS) (path : Str) (clk : Clock) (d : GDisk) : GDisk :=
  let e := logEntry clk d.g
  if e.numSthInit ≠ 0 ∨ e.numRevInit ≠ 0 ∨ e.numAccInit ≠ 0 ∨ e.numConInit ≠ 0 ∨
     e.numSthFrag ≠ 0 ∨ e.numRevFrag ≠ 0 ∨ e.numAccFrag ≠ 0 ∨
     e.numSthFull ≠ 0 ∨ e.numRevFull ≠ 0 ∨ e.numAccFull ≠ 0 ∨ e.numBlacklist ≠ 0
  then
    let log := d.g.log.set clk.period e
    ⟨{ d.g with log := log }, (writeData S d.fs path (some (dataText (logJson log)))).1⟩
  else d

/-- One event at a gossiper with its disk: gossiper_server.go:562-576 is the only one that writes. -/
def gdiskStep (cf : GConf L) (S : OS) (path : Str) (d : GDisk) (e : Clock × GOp) : GDisk :=
  match e.2 with
  | .periodic =>
    if d.g.crashed then d
    else
      let d := saveDisk S path e.1 d
      ⟨wipeStorage d.g, d.fs⟩
  | _ => ⟨gstep cf d.g e, d.fs⟩

/-- A history of a gossiper started on the disk `fs` (gossiper/Init.go:51-79: the log starts empty, the file is not read). -/
def gdiskRun (cf : GConf L) (S : OS) (path : Str) (fs : FS) (h : List (Clock × GOp)) : GDisk :=
  h.foldl (gdiskStep cf S path) ⟨GState.init, fs⟩

/-- gossiper/Init.go:65-66: the path a context is given -/
def defaultLogPath (storageID : Str) : Str := go!"Gossip_log/" ++ (storageID ++ go!".json")

/-- tests/networktests/Test1/Test1.go:63-64: the path of the test programs -/
def testLogPath (storageID : Str) : Str := (go!"gossiper_testdata/" ++ storageID ++ go!"/") ++ go!"gossiper_testdata.json"

/-- tests/networktests/Test1/Test1.go:69-73 after the clean-up: the directory and the file are created. -/
def testPrepare (S : OS) (fs : FS) (storageID : Str) : FS :=
  createFile S (createDir S fs (go!"gossiper_testdata/" ++ storageID ++ go!"/")) (testLogPath storageID)

/-! ### The certificates of a logger -/

variable (X : XLib)

/-- Logger/Types.go:170-179 `SaveToStorage`: an array of one-element arrays, each the JSON of a certificate (`certJson`, the
encoder of x509.Certificate, is not modelled) as a byte slice, which is written in base64. -/
def certsJson (certJson : Cert → Str) (certs : List Cert) : Json := .arr (certs.map fun c => .arr [.str (b64enc (certJson c))])

/-- Logger/Types.go:170-179 -/
def saveCerts (certJson : Cert → Str) (S : OS) (path : Str) (pool : CertPool) (fs : FS) : FS :=
  (writeData S fs path (some (dataText (certsJson certJson pool.getCerts)))).1

/-- Logger/server.go:161-180 `Send_POIs_to_CAs` with the call of `SaveToStorage` after each proof posted. `none` is a panic; the
writes made before it stay on the disk. -/
def sendPOIsDisk (certJson : Cert → Str) (S : OS) (path : Str) (sha : Str → Str) (pool : CertPool) (root : Str) :
    List POI → FS → Option (List (Str × POI)) × FS
  | [], fs => (some [], fs)
  | p :: t, fs =>
    if p.subjectKeyId.length ≠ 0 then
      match pool.getBySKI p.subjectKeyId with
      | .ok (some cert) =>
        if verifyPOI sha root p.poi cert then
          let r := sendPOIsDisk certJson S path sha pool root t (saveCerts certJson S path pool fs)
          (r.1.map ((p.issuer, p) :: ·), r.2)
        else (some [], fs)
      | _ => (none, fs)
    else sendPOIsDisk certJson S path sha pool root t fs

/-- Logger/server.go:207-252 with the disk: as `loggerRound`. -/
def loggerRoundDisk (certJson : Cert → Str) (S : OS) (path : Str) (c : LoggerConf L) (t : Instant) (s : LoggerState) (fs : FS) :
    Option LoggerState × FS :=
  let certs := s.pool.getCerts
  match buildMerkle X c t certs (loggerNextNum t) with
  | none => (none, fs)
  | some b =>
    match certs with
    | [] => (none, fs)
    | c0 :: _ =>
      match buildMerkle X c t (certs ++ [c0]) (loggerNextNum t) with
      | none => (none, fs)
      | some f =>
        let r := sendPOIsDisk certJson S path L.sha256 s.pool b.root b.pois fs
        (r.1.map fun sent =>
          { s with onlinePeriod := s.onlinePeriod + 1
                   sthStorage := s.sthStorage.set (loggerNextPeriod t) b.sth
                   sthStorageFake := s.sthStorageFake.set (loggerNextPeriod t) f.sth
                   sentSTHs := s.sentSTHs ++ c.allCAs.map (fun ca => (ca, b.sth))
                   sentPOIs := s.sentPOIs ++ sent
                   onlineDuration := if s.requestCount > 0 then s.onlineDuration + 1 else s.onlineDuration
                   requestCount := 0
                   pool := CertPool.new }, r.2)

/-- A history of a logger with its disk, as `loggerRun`; after a panic of the round the process has ended. -/
def loggerRunDisk (certJson : Cert → Str) (S : OS) (path : Str) (c : LoggerConf L) (s : LoggerState) (fs : FS) :
    List LoggerEvent → Option LoggerState × FS
  | [] => (some s, fs)
  | e :: t =>
    let r := match e with
      | .finish i => loggerRoundDisk X certJson S path c i s fs
      | e => (loggerStep X c s e, fs)
    match r with
    | (none, fs) => (none, fs)
    | (some s, fs) => loggerRunDisk certJson S path c s fs t
end
end CTng
