import Verif.Model.Json
import Verif.Model.X509
import Verif.Model.Monitor
/-
The JSON form of the project's types: how encoding/json decodes a JSON value into a Go value (null, type errors, matching of
member names, base64), and the values json.Marshal and json.Unmarshal handle in /repo. The library itself is not part of /repo
(see `Model/Json.lean`). Nil and empty slices are one value in the model: an empty slice without `omitempty` is written as
`null`, an empty `[]byte` as `""`.
-/
set_option autoImplicit false

namespace CTng
namespace Wire

/-! ### Base 64 (encoding/base64 StdEncoding) -/

def b64digit (n : Nat) : UInt8 :=
  if n < 26 then UInt8.ofNat (65 + n)
  else if n < 52 then UInt8.ofNat (71 + n)
  else if n < 62 then UInt8.ofNat (n - 4)
  else if n = 62 then 43
  else 47

def b64val (c : UInt8) : Option Nat :=
  if 65 ≤ c ∧ c ≤ 90 then some (c.toNat - 65)
  else if 97 ≤ c ∧ c ≤ 122 then some (c.toNat - 71)
  else if 48 ≤ c ∧ c ≤ 57 then some (c.toNat + 4)
  else if c = 43 then some 62
  else if c = 47 then some 63
  else none

/-- base64 EncodeToString -/
def b64enc : Str → Str
  | [] => []
  | [a] => [b64digit (a.toNat / 4), b64digit (a.toNat % 4 * 16), 61, 61]
  | [a, b] => [b64digit (a.toNat / 4), b64digit (a.toNat % 4 * 16 + b.toNat / 16), b64digit (b.toNat % 16 * 4), 61]
  | a :: b :: c :: t =>
    b64digit (a.toNat / 4) :: b64digit (a.toNat % 4 * 16 + b.toNat / 16) ::
      b64digit (b.toNat % 16 * 4 + c.toNat / 64) :: b64digit (c.toNat % 64) :: b64enc t

/-- The bytes of the last, padded group (not strict: spare bits are ignored). -/
def b64last (w x : Nat) (c d : UInt8) : Option Str :=
  if c = 61 then if d = 61 then some [UInt8.ofNat (w * 4 + x / 16)] else none
  else
    match b64val c with
    | none => none
    | some y => if d = 61 then some [UInt8.ofNat (w * 4 + x / 16), UInt8.ofNat (x % 16 * 16 + y / 4)] else none

/-- Decoding of text without line breaks. -/
def b64groups : Str → Option Str
  | [] => some []
  | a :: b :: c :: d :: t =>
    match b64val a, b64val b with
    | some w, some x =>
      match b64val c, b64val d with
      | some y, some z =>
        (b64groups t).map fun r =>
          UInt8.ofNat (w * 4 + x / 16) :: UInt8.ofNat (x % 16 * 16 + y / 4) :: UInt8.ofNat (y % 4 * 64 + z) :: r
      | _, _ => if t = [] then b64last w x c d else none
    | _, _ => none
  | _ => none

/-- base64 DecodeString: carriage returns and line feeds are skipped -/
def b64dec (s : Str) : Option Str := b64groups (s.filter fun c => c ≠ 10 ∧ c ≠ 13)

/-! ### Decoding into Go values -/

/-- decode.go `value`: the current content of the target and a JSON value give the new content, and whether there was no type
error. A type error is remembered (`saveError`) and decoding goes on. -/
abbrev Dec (α : Type) := α → Json → α × Bool

/-- decode.go `literalStore` into a string -/
def dStr : Dec Str
  | cur, .null => (cur, true)
  | _, .str s => (s, true)
  | cur, _ => (cur, false)

/-- decode.go `literalStore` into an integer below the bound. A negative number is an error here (the project's numbers are
counts). -/
def dNat (bound : Nat) : Dec Nat
  | cur, .null => (cur, true)
  | cur, .num tok =>
    match atoi tok with
    | some n => if n < bound then (n, true) else (cur, false)
    | none => (cur, false)
  | cur, _ => (cur, false)

/-- The elements of a slice; the `i`th is decoded over the `i`th old one. -/
def dElems {α : Type} (z : α) (d : Dec α) : List α → List Json → List α × Bool
  | _, [] => ([], true)
  | cur, j :: t =>
    let r := d (cur.headD z) j
    let q := dElems z d cur.tail t
    (r.1 :: q.1, r.2 && q.2)

/-- decode.go `array` into a slice -/
def dList {α : Type} (z : α) (d : Dec α) : Dec (List α)
  | _, .null => ([], true)
  | cur, .arr l => dElems z d cur l
  | cur, _ => (cur, false)

/-- decode.go `literalStore` and `array` into a `[]byte` -/
def dBytes : Dec Str
  | cur, .str s =>
    match b64dec s with
    | some b => (b, true)
    | none => (cur, false)
  | cur, .arr l =>
    let r := dElems 0 (dNat 256) (cur.map UInt8.toNat) l
    (r.1.map UInt8.ofNat, r.2)
  | _, .null => ([], true)
  | cur, _ => (cur, false)

/-- The `i`th element of a fixed array: missing elements become empty. -/
def dAt (cur : Str) (l : List Json) (i : Nat) : Str × Bool :=
  match l[i]? with
  | some j => dStr cur j
  | none => ([], true)

/-- decode.go `array` into a `[2]string`: further elements are ignored -/
def dSig2 : Dec Sig2
  | cur, .null => (cur, true)
  | cur, .arr l => (⟨(dAt cur.s0 l 0).1, (dAt cur.s1 l 1).1⟩, (dAt cur.s0 l 0).2 && (dAt cur.s1 l 1).2)
  | cur, _ => (cur, false)

/-- decode.go `array` into a `[3]string` -/
def dPay3 : Dec Pay3
  | cur, .null => (cur, true)
  | cur, .arr l =>
    (⟨(dAt cur.p0 l 0).1, (dAt cur.p1 l 1).1, (dAt cur.p2 l 2).1⟩,
      (dAt cur.p0 l 0).2 && (dAt cur.p1 l 1).2 && (dAt cur.p2 l 2).2)
  | cur, _ => (cur, false)

/-- A string field modelled by the enumeration `GType`. -/
def dType : Dec GType := fun cur j => let r := dStr cur.toStr j; (GType.ofStr r.1, r.2)

/-- decode.go `indirect`: null makes a pointer nil, anything else is decoded into the (allocated) target -/
def dPtr {α : Type} (z : α) (d : Dec α) : Dec (Option α)
  | _, .null => (none, true)
  | cur, j => let r := d (cur.getD z) j; (some r.1, r.2)

/-- fold.go: the form under which two member names are the same: upper case letters become lower case ones, and so do the two
other runes that fold to an ASCII letter (U+017F and U+212A) -/
def foldKey : Str → Str
  | [] => []
  | 0xC5 :: 0xBF :: t => 115 :: foldKey t
  | 0xE2 :: 0x84 :: 0xAA :: t => 107 :: foldKey t
  | c :: t => (if 65 ≤ c ∧ c ≤ 90 then c + 32 else c) :: foldKey t

/-- decode.go `object`: the field of a member, first by name, then ignoring case -/
def fieldIndex (names : List Str) (k : Str) : Option Nat :=
  match names.findIdx? (· = k) with
  | some i => some i
  | none => names.findIdx? fun n => foldKey n = foldKey k

/-- One member. Members that match no field are skipped. -/
def dMember {α : Type} (names : List Str) (set : Nat → Dec α) (acc : α × Bool) (m : Str × Json) : α × Bool :=
  match fieldIndex names m.1 with
  | none => acc
  | some i => let r := set i acc.1 m.2; (r.1, acc.2 && r.2)

/-- decode.go `object` into a struct -/
def dStruct {α : Type} (names : List Str) (set : Nat → Dec α) : Dec α
  | cur, .null => (cur, true)
  | cur, .obj l => l.foldl (dMember names set) (cur, true)
  | cur, _ => (cur, false)

/-- decode.go `object` into a `map[string]string` -/
def dMap : Dec (GoMap Str Str)
  | _, .null => (.empty, true)
  | cur, .obj l => l.foldl (fun acc m => let r := dStr [] m.2; (acc.1.set m.1 r.1, acc.2 && r.2)) (cur, true)
  | cur, _ => (cur, false)

/-- json.Unmarshal into a zero value: what is left in the target, and whether there was no error. A syntax error is found before
anything is stored. -/
def unmarshal {α : Type} (z : α) (d : Dec α) (s : Str) : α × Bool :=
  match Json.parse s with
  | none => (z, false)
  | some j => d z j

/-- json.Decoder.Decode of the first value of a stream -/
def decode {α : Type} (z : α) (d : Dec α) (s : Str) : α × Bool :=
  match Json.parseFirst s with
  | none => (z, false)
  | some j => d z j

/-- json.Encoder.Encode: the value and a line feed -/
def encodeLine (j : Json) : Str := Json.render j ++ [10]

/-! ### The types -/

/-- A list without `omitempty`. -/
def jList {α : Type} (f : α → Json) (l : List α) : Json := if l = [] then .null else .arr (l.map f)

/-- A member with `omitempty`. -/
def opt (absent : Bool) (k : Str) (j : Json) : List (Str × Json) := if absent then [] else [(k, j)]

/-- definition/Types.go:3-14 (`omitempty` has no effect on an array) -/
def gossipJson (g : GossipObj) : Json :=
  .obj ([(go!"application", .str g.application), (go!"period", .str g.period), (go!"type", .str g.type.toStr),
    (go!"signer", .str g.signer)] ++
    opt (g.signers.isEmpty) (go!"signers") (.arr (g.signers.map .str)) ++
    [(go!"signature", .arr [.str g.sig.s0, .str g.sig.s1]), (go!"timestamp", .str g.timestamp),
      (go!"crypto_scheme", .str g.cryptoScheme),
      (go!"payload", .arr [.str g.payload.p0, .str g.payload.p1, .str g.payload.p2])])

/-- definition/Types.go:3-14 -/
def gossipNames : List Str :=
  [go!"application", go!"period", go!"type", go!"signer", go!"signers", go!"signature", go!"timestamp", go!"crypto_scheme",
    go!"payload"]

/-- definition/Types.go:3-14 -/
def dGossip : Dec GossipObj := dStruct gossipNames fun i g j =>
  match i with
  | 0 => ({ g with application := (dStr g.application j).1 }, (dStr g.application j).2)
  | 1 => ({ g with period := (dStr g.period j).1 }, (dStr g.period j).2)
  | 2 => ({ g with type := (dType g.type j).1 }, (dType g.type j).2)
  | 3 => ({ g with signer := (dStr g.signer j).1 }, (dStr g.signer j).2)
  | 4 => ({ g with signers := (dList [] dStr g.signers j).1 }, (dList [] dStr g.signers j).2)
  | 5 => ({ g with sig := (dSig2 g.sig j).1 }, (dSig2 g.sig j).2)
  | 6 => ({ g with timestamp := (dStr g.timestamp j).1 }, (dStr g.timestamp j).2)
  | 7 => ({ g with cryptoScheme := (dStr g.cryptoScheme j).1 }, (dStr g.cryptoScheme j).2)
  | _ => ({ g with payload := (dPay3 g.payload j).1 }, (dPay3 g.payload j).2)

/-- gossiper/types.go:108-114 -/
def notifJson (n : Notification) : Json :=
  .obj [(go!"sender", .str n.sender), (go!"period", .str n.period), (go!"type", .str n.type.toStr),
    (go!"entity_url", .str n.entity), (go!"objhash", .str (b64enc n.objhash))]

/-- gossiper/types.go:108-114 -/
def notifNames : List Str := [go!"sender", go!"period", go!"type", go!"entity_url", go!"objhash"]

/-- `Gossip_Notification{}` -/
def notifZero : Notification := ⟨[], [], .other [], [], []⟩

/-- gossiper/types.go:108-114 -/
def dNotif : Dec Notification := dStruct notifNames fun i n j =>
  match i with
  | 0 => ({ n with sender := (dStr n.sender j).1 }, (dStr n.sender j).2)
  | 1 => ({ n with period := (dStr n.period j).1 }, (dStr n.period j).2)
  | 2 => ({ n with type := (dType n.type j).1 }, (dType n.type j).2)
  | 3 => ({ n with entity := (dStr n.entity j).1 }, (dStr n.entity j).2)
  | _ => ({ n with objhash := (dBytes n.objhash j).1 }, (dBytes n.objhash j).2)

/-- definition/Types.go:36-42 -/
def sthJson (d : STHData) : Json :=
  .obj [(go!"Signer", .str d.signer), (go!"Timestamp", .str d.timestamp), (go!"Period", .str d.period),
    (go!"RootHash", .str d.rootHash), (go!"TreeSize", .num (itoa d.treeSize))]

/-- definition/Types.go:36-42 -/
def sthNames : List Str := [go!"Signer", go!"Timestamp", go!"Period", go!"RootHash", go!"TreeSize"]

def sthZero : STHData := ⟨[], [], [], [], 0⟩

/-- definition/Types.go:36-42 -/
def dSTH : Dec STHData := dStruct sthNames fun i n j =>
  match i with
  | 0 => ({ n with signer := (dStr n.signer j).1 }, (dStr n.signer j).2)
  | 1 => ({ n with timestamp := (dStr n.timestamp j).1 }, (dStr n.timestamp j).2)
  | 2 => ({ n with period := (dStr n.period j).1 }, (dStr n.period j).2)
  | 3 => ({ n with rootHash := (dStr n.rootHash j).1 }, (dStr n.rootHash j).2)
  | _ => ({ n with treeSize := (dNat (2 ^ 63) n.treeSize j).1 }, (dNat (2 ^ 63) n.treeSize j).2)

/-- CA/CRV.go:38-42, definition/Types.go:30-34 -/
def revJson (r : Revocation) : Json :=
  .obj [(go!"Period", .str r.period), (go!"Delta_CRV", .str (b64enc r.deltaCRV)), (go!"SRH", .str r.srh)]

/-- CA/CRV.go:38-42 -/
def revNames : List Str := [go!"Period", go!"Delta_CRV", go!"SRH"]

def revZero : Revocation := ⟨[], [], []⟩

/-- CA/CRV.go:38-42 -/
def dRev : Dec Revocation := dStruct revNames fun i n j =>
  match i with
  | 0 => ({ n with period := (dStr n.period j).1 }, (dStr n.period j).2)
  | 1 => ({ n with deltaCRV := (dBytes n.deltaCRV j).1 }, (dBytes n.deltaCRV j).2)
  | _ => ({ n with srh := (dStr n.srh j).1 }, (dStr n.srh j).2)

/-- `merkletree.Proof` (github.com/txaty/go-merkletree) -/
def proofJson (p : MProof) : Json :=
  .obj [(go!"Siblings", jList (fun s => .str (b64enc s)) p.siblings), (go!"Path", .num (itoa p.path))]

def proofNames : List Str := [go!"Siblings", go!"Path"]

def dProof : Dec MProof := dStruct proofNames fun i n j =>
  match i with
  | 0 => ({ n with siblings := (dList [] dBytes n.siblings j).1 }, (dList [] dBytes n.siblings j).2)
  | _ => ({ n with path := (dNat (2 ^ 32) n.path j).1 }, (dNat (2 ^ 32) n.path j).2)

/-- crypto/MerkleTree.go:27-32 -/
def poiJson (p : POI) : Json :=
  .obj ((match p.poi with
    | none => []
    | some q => [(go!"poi", proofJson q)]) ++
    opt p.subjectKeyId.isEmpty (go!"subjectKeyId") (.str (b64enc p.subjectKeyId)) ++
    opt p.issuer.isEmpty (go!"issuer") (.str p.issuer) ++ opt p.loggerID.isEmpty (go!"loggerID") (.str p.loggerID))

/-- crypto/MerkleTree.go:27-32 -/
def poiNames : List Str := [go!"poi", go!"subjectKeyId", go!"issuer", go!"loggerID"]

def poiZero : POI := ⟨none, [], [], []⟩

/-- crypto/MerkleTree.go:27-32 -/
def dPOI : Dec POI := dStruct poiNames fun i n j =>
  match i with
  | 0 => ({ n with poi := (dPtr ⟨[], 0⟩ dProof n.poi j).1 }, (dPtr ⟨[], 0⟩ dProof n.poi j).2)
  | 1 => ({ n with subjectKeyId := (dBytes n.subjectKeyId j).1 }, (dBytes n.subjectKeyId j).2)
  | 2 => ({ n with issuer := (dStr n.issuer j).1 }, (dStr n.issuer j).2)
  | _ => ({ n with loggerID := (dStr n.loggerID j).1 }, (dStr n.loggerID j).2)

/-- CA/types.go:71-74 (`omitempty` has no effect on a struct) -/
def infoJson (l : LoggerInfo) : Json := .obj [(go!"STH", gossipJson l.sth), (go!"POI", poiJson l.poi)]

/-- CA/types.go:71-74 -/
def infoNames : List Str := [go!"STH", go!"POI"]

def infoZero : LoggerInfo := ⟨.zero, poiZero⟩

/-- CA/types.go:71-74 -/
def dInfo : Dec LoggerInfo := dStruct infoNames fun i n j =>
  match i with
  | 0 => ({ n with sth := (dGossip n.sth j).1 }, (dGossip n.sth j).2)
  | _ => ({ n with poi := (dPOI n.poi j).1 }, (dPOI n.poi j).2)

/-- CA/types.go:76-83 -/
def extJson (e : CTngExt) : Json :=
  .obj ([(go!"SequenceNumber", .obj (opt (e.rid == 0) (go!"RID") (.num (itoa e.rid))))] ++
    opt e.loggers.isEmpty (go!"LoggerInformation") (.arr (e.loggers.map infoJson)))

/-- CA/types.go:76-78. (A negative number, which no CA of the project writes, is an error here; the code would read it, and
`uint(RID)` in the client would then lie beyond every vector.) -/
def dRid : Dec Nat := dStruct [go!"RID"] fun _ n j => dNat (2 ^ 63) n j

/-- CA/types.go:80-83 -/
def extNames : List Str := [go!"SequenceNumber", go!"LoggerInformation"]

/-- CA/types.go:80-83 -/
def dExt : Dec CTngExt := dStruct extNames fun i n j =>
  match i with
  | 0 => ({ n with rid := (dRid n.rid j).1 }, (dRid n.rid j).2)
  | _ => ({ n with loggers := (dList infoZero dInfo n.loggers j).1 }, (dList infoZero dInfo n.loggers j).2)

/-- monitor/client-update-monitor.go:18-27. The lists of an update are never nil: monitor/monitor.go:414-417 makes them, and
`encoding/json` makes them when it reads `[]`. -/
def updateJson (u : ClientUpdate) : Json :=
  .obj [(go!"STHs", .arr (u.sths.map gossipJson)), (go!"REVs", .arr (u.revs.map gossipJson)),
    (go!"POM_CONs", .arr (u.pomCONs.map gossipJson)), (go!"POM_ACCs", .arr (u.pomACCs.map gossipJson)),
    (go!"MonitorID", .str u.monitorID), (go!"Period", .str u.period)]

/-- monitor/client-update-monitor.go:18-27 -/
def updateNames : List Str := [go!"STHs", go!"REVs", go!"POM_CONs", go!"POM_ACCs", go!"MonitorID", go!"Period"]

/-- `ClientUpdate{}` -/
def updateZero : ClientUpdate := ⟨[], [], [], [], [], []⟩

/-- monitor/client-update-monitor.go:18-27 -/
def dUpdate : Dec ClientUpdate := dStruct updateNames fun i n j =>
  match i with
  | 0 => ({ n with sths := (dList .zero dGossip n.sths j).1 }, (dList .zero dGossip n.sths j).2)
  | 1 => ({ n with revs := (dList .zero dGossip n.revs j).1 }, (dList .zero dGossip n.revs j).2)
  | 2 => ({ n with pomCONs := (dList .zero dGossip n.pomCONs j).1 }, (dList .zero dGossip n.pomCONs j).2)
  | 3 => ({ n with pomACCs := (dList .zero dGossip n.pomACCs j).1 }, (dList .zero dGossip n.pomACCs j).2)
  | 4 => ({ n with monitorID := (dStr n.monitorID j).1 }, (dStr n.monitorID j).2)
  | _ => ({ n with period := (dStr n.period j).1 }, (dStr n.period j).2)

/-- crypto/types.go:237-240, the anonymous struct of `ThresholdSigFromString` -/
def dThreshold : Dec (Str × List Str) := dStruct [go!"Sign", go!"IDs"] fun i n j =>
  match i with
  | 0 => (((dStr n.1 j).1, n.2), (dStr n.1 j).2)
  | _ => ((n.1, (dList [] dStr n.2 j).1), (dList [] dStr n.2 j).2)

/-! ### asn1: the OCTET STRING around the extension -/

/-- asn1 marshal.go `appendLength`: big endian, without leading zeros -/
def beBytes (n : Nat) : Str := if n < 256 then [UInt8.ofNat n] else beBytes (n / 256) ++ [UInt8.ofNat (n % 256)]
termination_by n

/-- asn1.Marshal of `RawValue{Tag: TagOctetString, Bytes: s}` (CA/types.go:99-104) -/
def octet (s : Str) : Str :=
  4 :: (if s.length < 128 then [UInt8.ofNat s.length]
    else UInt8.ofNat (128 + (beBytes s.length).length) :: beBytes s.length) ++ s

/-- asn1.go `parseTagAndLength`: the length bytes; `none` for a number of 2^23 or more before a further byte, and for a leading
zero -/
def derLen : Nat → Nat → Str → Option (Nat × Str)
  | 0, acc, s => some (acc, s)
  | _ + 1, _, [] => none
  | n + 1, acc, c :: t =>
    if 2 ^ 23 ≤ acc then none
    else if acc * 256 + c.toNat = 0 then none
    else derLen n (acc * 256 + c.toNat) t

/-- asn1.go `parseBase128Int` as used for a long tag number, only as far as skipping it (at most five bytes, no leading 0x80;
the bound 2^31 on the number is left out). -/
def skipTag : Nat → Str → Option Str
  | 0, _ => none
  | _ + 1, [] => none
  | n + 1, c :: t => if c < 128 then some t else skipTag n t

/-- asn1.Unmarshal into a `RawValue` (CA/types.go:114-115): the contents, and nothing on an error; bytes after the value are
ignored. The checks on long tag numbers are left out except the number of their bytes. -/
def unoctet (s : Str) : Str :=
  match s with
  | [] => []
  | tag :: t =>
    match (if tag &&& 31 = 31 then skipTag 5 t else some t) with
    | none => []
    | some [] => []
    | some (l :: r) =>
      match (if l < 128 then some (l.toNat, r)
        else if l = 128 then none
        else
          match derLen (l.toNat - 128) 0 r with
          | some (n, r) => if n < 128 then none else some (n, r)
          | none => none) with
      | none => []
      | some (n, r) => if n ≤ r.length then r.take n else []

end Wire

/-! ### The libraries with this JSON -/

/-- The library with encoding/json as modelled here. -/
def Lib.withJson (L : Lib) : Lib :=
  { L with
    jsonStrMap := fun s => let r := Wire.unmarshal .empty Wire.dMap s; if r.2 then some r.1 else none
    jsonThreshold := fun s => let r := Wire.unmarshal ([], []) Wire.dThreshold s; if r.2 then some r.1 else none
    jsonStrList := fun l => Json.render (.arr (l.map .str)) }

/-- The encoders with encoding/json as modelled here; `wrap` and `unwrap` are the OCTET STRING around the extension
(`Wire.octet`, `Wire.unoctet`). -/
def XLib.withJson (X : XLib) (wrap unwrap : Str → Str) : XLib :=
  { X with
    encSTH := fun d => Json.render (Wire.sthJson d)
    decSTH := fun s => let r := Wire.unmarshal Wire.sthZero Wire.dSTH s; if r.2 then some r.1 else none
    encRev := fun r => Json.render (Wire.revJson r)
    decRev := fun s => (Wire.unmarshal Wire.revZero Wire.dRev s).1
    encExt := fun e => wrap (Json.render (Wire.extJson e))
    decExt := fun s => (Wire.unmarshal CTngExt.zero Wire.dExt (unwrap s)).1 }

end CTng
