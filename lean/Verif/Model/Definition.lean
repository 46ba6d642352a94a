import Verif.Base.Lib
/- Model of definition/Types.go: gossip objects and their identities. -/
set_option autoImplicit false

namespace CTng

/-- The `Type` string of a gossip object. definition/Types.go:47-58 defines ten constants; every other string is
`other s`. All uses of the field in the code are equality tests against the constants, assignment, and use inside map
keys, so the field is modelled by this enumeration; `GType.ofStr`/`GType.toStr` give the correspondence. -/
inductive GType where
  | STH_INIT | REV_INIT | ACC_INIT | CON_INIT
  | STH_FRAG | REV_FRAG | ACC_FRAG
  | STH_FULL | REV_FULL | ACC_FULL
  | other (s : Str)
  deriving DecidableEq, Repr

/-- definition/Types.go:47-58 -/
def GType.toStr : GType → Str
  | .STH_INIT => go!"http://ctng.uconn.edu/101"
  | .REV_INIT => go!"http://ctng.uconn.edu/102"
  | .ACC_INIT => go!"http://ctng.uconn.edu/103"
  | .CON_INIT => go!"http://ctng.uconn.edu/104"
  | .STH_FRAG => go!"http://ctng.uconn.edu/201"
  | .REV_FRAG => go!"http://ctng.uconn.edu/202"
  | .ACC_FRAG => go!"http://ctng.uconn.edu/203"
  | .STH_FULL => go!"http://ctng.uconn.edu/301"
  | .REV_FULL => go!"http://ctng.uconn.edu/302"
  | .ACC_FULL => go!"http://ctng.uconn.edu/303"
  | .other s => s

/-- The type a Go type string denotes. -/
def GType.ofStr (s : Str) : GType :=
  if s = GType.STH_INIT.toStr then .STH_INIT
  else if s = GType.REV_INIT.toStr then .REV_INIT
  else if s = GType.ACC_INIT.toStr then .ACC_INIT
  else if s = GType.CON_INIT.toStr then .CON_INIT
  else if s = GType.STH_FRAG.toStr then .STH_FRAG
  else if s = GType.REV_FRAG.toStr then .REV_FRAG
  else if s = GType.ACC_FRAG.toStr then .ACC_FRAG
  else if s = GType.STH_FULL.toStr then .STH_FULL
  else if s = GType.REV_FULL.toStr then .REV_FULL
  else if s = GType.ACC_FULL.toStr then .ACC_FULL
  else .other s

/-- `Signature [2]string` -/
structure Sig2 where
  s0 : Str
  s1 : Str
  deriving DecidableEq, Repr

/-- `Payload [3]string` -/
structure Pay3 where
  p0 : Str
  p1 : Str
  p2 : Str
  deriving DecidableEq, Repr

/-- `Payload[0] + Payload[1] + Payload[2]`, the string every signature is computed over
(definition/Verify.go:45, 59, 76; gossiper/gen.go:12). -/
def Pay3.cat (p : Pay3) : Str := p.p0 ++ p.p1 ++ p.p2

/-- definition/Types.go:3-14 -/
structure GossipObj where
  application : Str
  period : Str
  type : GType
  signer : Str
  signers : List Str
  sig : Sig2
  timestamp : Str
  cryptoScheme : Str
  payload : Pay3
  deriving DecidableEq, Repr

/-- `Gossip_object{}` -/
def GossipObj.zero : GossipObj :=
  { application := [], period := [], type := .other [], signer := [], signers := [], sig := ⟨[], []⟩,
    timestamp := [], cryptoScheme := [], payload := ⟨[], [], []⟩ }

instance : Inhabited GossipObj := ⟨GossipObj.zero⟩

/-- definition/Types.go:62-66 -/
structure GossipID where
  period : Str
  type : GType
  entity : Str
  deriving DecidableEq, Repr

/-- definition/Types.go:72-79 `GetID` -/
def GossipObj.getID (g : GossipObj) : GossipID := { period := g.period, type := g.type, entity := g.payload.p0 }

/-- definition/Types.go:68-70 `Gossip_ID.String` -/
def GossipID.toStr (i : GossipID) : Str := i.period ++ i.type.toStr ++ i.entity

/-- definition/Types.go:80-97 `GetTargetType` (the default result is the empty string) -/
def GossipObj.getTargetType (g : GossipObj) : GType :=
  match g.type with
  | .STH_INIT => .STH_FRAG
  | .REV_INIT => .REV_FRAG
  | .ACC_INIT => .ACC_FRAG
  | .STH_FRAG => .STH_FULL
  | .REV_FRAG => .REV_FULL
  | .ACC_FRAG => .ACC_FULL
  | _ => .other []

/-- definition/Types.go:128-153 `TypeString` -/
def typeString : GType → Str
  | .STH_INIT => go!"STH_INIT"
  | .REV_INIT => go!"REV_INIT"
  | .ACC_INIT => go!"ACC_INIT"
  | .CON_INIT => go!"CON_INIT"
  | .STH_FRAG => go!"STH_FRAG"
  | .REV_FRAG => go!"REV_FRAG"
  | .ACC_FRAG => go!"ACC_FRAG"
  | .STH_FULL => go!"STH_FULL"
  | .REV_FULL => go!"REV_FULL"
  | .ACC_FULL => go!"ACC_FULL"
  | .other _ => go!"UNKNOWN"

/-- definition/Types.go:44 -/
def CTNG_APPLICATION : Str := go!"CTng"

end CTng
