import Verif.Model.X509
import Verif.Base.Codec
import Verif.Spec.RefLib
/-
Contracts of the encoders of `XLib` (encoding/json, encoding/asn1, compress, bitset, crypto/x509). A theorem that needs
one takes it as a hypothesis; `Ref.xlib` satisfies all of them together.
-/
set_option autoImplicit false

namespace CTng

/-- A string of ASCII characters: encoding/json keeps it (it replaces invalid UTF-8). -/
def Ascii (s : Str) : Prop := ∀ c ∈ s, c < 128

/-- A gossip object encoding/json keeps: its string fields are ASCII and the type is in the form `GType.ofStr` gives. -/
structure GossipObj.Plain (g : GossipObj) : Prop where
  application : Ascii g.application
  period : Ascii g.period
  type : GType.ofStr g.type.toStr = g.type ∧ Ascii g.type.toStr
  signer : Ascii g.signer
  signers : ∀ s ∈ g.signers, Ascii s
  sig : Ascii g.sig.s0 ∧ Ascii g.sig.s1
  timestamp : Ascii g.timestamp
  cryptoScheme : Ascii g.cryptoScheme
  payload : Ascii g.payload.p0 ∧ Ascii g.payload.p1 ∧ Ascii g.payload.p2

/-- A proof of inclusion encoding/json keeps; `Path` is a uint32. -/
structure POI.Plain (p : POI) : Prop where
  poi : ∀ q, p.poi = some q → q.path < 2 ^ 32
  issuer : Ascii p.issuer
  loggerID : Ascii p.loggerID

structure LoggerInfo.Plain (l : LoggerInfo) : Prop where
  sth : l.sth.Plain
  poi : l.poi.Plain

/-- `RID` is a (64 bit) int. -/
structure CTngExt.Plain (e : CTngExt) : Prop where
  rid : e.rid < 2 ^ 63
  loggers : ∀ l ∈ e.loggers, l.Plain

structure STHData.Plain (d : STHData) : Prop where
  signer : Ascii d.signer
  timestamp : Ascii d.timestamp
  period : Ascii d.period
  rootHash : Ascii d.rootHash
  treeSize : d.treeSize < 2 ^ 63

structure Revocation.Plain (r : Revocation) : Prop where
  period : Ascii r.period
  srh : Ascii r.srh

/-- The contracts. -/
structure XLib.Laws (X : XLib) : Prop where
  sth : ∀ d : STHData, d.Plain → X.decSTH (X.encSTH d) = some d
  rev : ∀ r : Revocation, r.Plain → X.decRev (X.encRev r) = r
  ext : ∀ e : CTngExt, e.Plain → X.decExt (X.encExt e) = e
  bits : ∀ b : BitSet, b.WF → X.unmarshal (X.marshal b) = some b
  compress : ∀ s, X.decompress (X.compress s) = s
  /-- JSON produced by encoding/json from valid UTF-8 strings and numbers is ASCII when the strings are -/
  revAscii : ∀ r : Revocation, r.Plain → Ascii (X.encRev r)
  /-- x509.CreateCertificate appends `ExtraExtensions`; no other extension has the CTng OID -/
  createExt : ∀ t p k, (X.createCert t p k).extensions.filter (fun e => e.1 = oidCTng) =
    t.extraExtensions.filter (fun e => e.1 = oidCTng)
  createSubject : ∀ t p k, (X.createCert t p k).subjectCN = t.subjectCN
  createIssuer : ∀ t p k, (X.createCert t p k).issuerCN = p.subjectCN
  createSKI : ∀ t p k, t.subjectKeyId ≠ [] → (X.createCert t p k).subjectKeyId = t.subjectKeyId
  /-- the DER of the subject of a template without `RawSubject` is determined by, and determines, the common name (the
  project sets the other name fields to constants) -/
  createRawSubject : ∀ t p k t' p' k', t.rawSubject = [] → t'.rawSubject = [] →
    ((X.createCert t p k).rawSubject = (X.createCert t' p' k').rawSubject ↔ t.subjectCN = t'.subjectCN)
  /-- a template with `RawSubject` (one made from a parsed certificate) keeps it -/
  createKeepsSubject : ∀ t p k, t.rawSubject ≠ [] → (X.createCert t p k).rawSubject = t.rawSubject
  /-- a certificate made from a template without `RawSubject` has one (the DER of a name is not empty) -/
  createHasSubject : ∀ t p k, t.rawSubject = [] → (X.createCert t p k).rawSubject ≠ []
  /-- CA/ca.go:83-92 returns what ParseCertificate made of the DER bytes, which are in `Raw` -/
  createParse : ∀ t p k, X.parseCert (X.createCert t p k).raw = some (X.createCert t p k)

/-! ### A concrete instance -/

namespace Ref
open Codec

def gtypeCode : GType → Nat × Str
  | .STH_INIT => (0, []) | .REV_INIT => (1, []) | .ACC_INIT => (2, []) | .CON_INIT => (3, []) | .STH_FRAG => (4, [])
  | .REV_FRAG => (5, []) | .ACC_FRAG => (6, []) | .STH_FULL => (7, []) | .REV_FULL => (8, []) | .ACC_FULL => (9, [])
  | .other s => (10, s)

def gtypeOf : Nat × Str → GType
  | (0, _) => .STH_INIT | (1, _) => .REV_INIT | (2, _) => .ACC_INIT | (3, _) => .CON_INIT | (4, _) => .STH_FRAG
  | (5, _) => .REV_FRAG | (6, _) => .ACC_FRAG | (7, _) => .STH_FULL | (8, _) => .REV_FULL | (9, _) => .ACC_FULL
  | (_, s) => .other s

def cType : Codec GType := (pair nat str).iso gtypeCode gtypeOf (by intro b; cases b <;> rfl)

def cObj : Codec GossipObj :=
  (pair str (pair str (pair cType (pair str (pair (list str) (pair (pair str str) (pair str (pair str
    (pair str (pair str str)))))))))).iso
    (fun g => (g.application, g.period, g.type, g.signer, g.signers, (g.sig.s0, g.sig.s1), g.timestamp, g.cryptoScheme,
      g.payload.p0, g.payload.p1, g.payload.p2))
    (fun x => ⟨x.1, x.2.1, x.2.2.1, x.2.2.2.1, x.2.2.2.2.1, ⟨x.2.2.2.2.2.1.1, x.2.2.2.2.2.1.2⟩, x.2.2.2.2.2.2.1,
      x.2.2.2.2.2.2.2.1, ⟨x.2.2.2.2.2.2.2.2.1, x.2.2.2.2.2.2.2.2.2.1, x.2.2.2.2.2.2.2.2.2.2⟩⟩)
    (fun _ => rfl)

def cProof : Codec MProof :=
  (pair (list str) nat).iso (fun p => (p.siblings, p.path)) (fun x => ⟨x.1, x.2⟩) (fun _ => rfl)

def cPOI : Codec POI :=
  (pair (option cProof) (pair str (pair str str))).iso (fun p => (p.poi, p.subjectKeyId, p.issuer, p.loggerID))
    (fun x => ⟨x.1, x.2.1, x.2.2.1, x.2.2.2⟩) (fun _ => rfl)

def cInfo : Codec LoggerInfo := (pair cObj cPOI).iso (fun l => (l.sth, l.poi)) (fun x => ⟨x.1, x.2⟩) (fun _ => rfl)

def cExt : Codec CTngExt := (pair nat (list cInfo)).iso (fun l => (l.rid, l.loggers)) (fun x => ⟨x.1, x.2⟩) (fun _ => rfl)

def cBits : Codec BitSet := (pair nat nat).iso (fun b => (b.len, b.bits)) (fun x => ⟨x.1, x.2⟩) (fun _ => rfl)

def cSTH : Codec STHData :=
  (pair str (pair str (pair str (pair str nat)))).iso (fun d => (d.signer, d.timestamp, d.period, d.rootHash, d.treeSize))
    (fun x => ⟨x.1, x.2.1, x.2.2.1, x.2.2.2.1, x.2.2.2.2⟩) (fun _ => rfl)

def cRev : Codec Revocation :=
  (pair str (pair str str)).iso (fun d => (d.period, d.deltaCRV, d.srh)) (fun x => ⟨x.1, x.2.1, x.2.2⟩) (fun _ => rfl)

def cExts : Codec (List (Str × Str)) := list (pair str str)

/-- All fields of a certificate. -/
def cCert : Codec Cert :=
  (pair (pair str (pair str str)) (pair str (pair str (pair str (pair str (pair str (pair str (pair nat (pair bool
    (pair str (pair cExts cExts))))))))))).iso
    (fun c => ((c.raw, c.rawTBS, c.signature), c.rawSubject, c.subjectCN, c.rawIssuer, c.issuerCN, c.subjectKeyId,
      c.authorityKeyId, c.serial, c.isCA, c.publicKey, c.extensions, c.extraExtensions))
    (fun x => ⟨x.1.1, x.1.2.1, x.1.2.2, x.2.1, x.2.2.1, x.2.2.2.1, x.2.2.2.2.1, x.2.2.2.2.2.1, x.2.2.2.2.2.2.1,
      x.2.2.2.2.2.2.2.1, x.2.2.2.2.2.2.2.2.1, x.2.2.2.2.2.2.2.2.2.1, x.2.2.2.2.2.2.2.2.2.2.1, x.2.2.2.2.2.2.2.2.2.2.2⟩)
    (fun _ => rfl)

/-- The certificate made from a template (its `Raw` field encodes the others): names in clear, the issuer's term signature over the content. -/
def makeCert (t p : Cert) (k : Str) : Cert :=
  let body : Cert :=
    { raw := [], rawTBS := [], signature := [], rawSubject := if t.rawSubject = [] then go!"CN=" ++ t.subjectCN else t.rawSubject,
      subjectCN := t.subjectCN, rawIssuer := go!"CN=" ++ p.subjectCN, issuerCN := p.subjectCN,
      subjectKeyId := t.subjectKeyId, authorityKeyId := p.subjectKeyId, serial := t.serial, isCA := t.isCA,
      publicKey := k, extensions := t.extraExtensions, extraExtensions := [] }
  let tbs := cCert.enc body
  let signed : Cert := { body with rawTBS := tbs, signature := tok p.subjectCN tbs }
  { signed with raw := cCert.enc signed }

/-- Hexadecimal form of an encoding: ASCII whatever the content. -/
def hx {α : Type} (c : Codec α) (a : α) : Str := hexEncode (c.enc a)

def unhx {α : Type} (c : Codec α) (s : Str) : Option α := (hexDecode s).bind c.decode

theorem unhx_hx {α : Type} (c : Codec α) (a : α) : unhx c (hx c a) = some a := by
  simp [unhx, hx, hexDecode_encode, Codec.decode_enc]

def xlib : XLib where
  encSTH := hx cSTH
  decSTH := unhx cSTH
  encRev := hx cRev
  decRev s := (unhx cRev s).getD ⟨[], [], []⟩
  marshal := cBits.enc
  unmarshal := cBits.decode
  compress := id
  decompress := id
  encExt := hx cExt
  decExt s := (unhx cExt s).getD CTngExt.zero
  parseCert s := (cCert.decode s).map fun c => { c with raw := s }
  createCert := makeCert

theorem hexEncode_ascii (s : Str) : Ascii (hexEncode s) := by
  intro c h
  have := hexEncode_safe s c h
  simp only [safeChar, Bool.and_eq_true, decide_eq_true_eq] at this
  have := this.1.1.2
  simp only [UInt8.lt_iff_toNat_lt] at *
  simp at *
  omega

theorem xlaws : xlib.Laws where
  sth d _ := unhx_hx cSTH d
  rev d _ := by simp [xlib, unhx_hx]
  ext d _ := by simp [xlib, unhx_hx]
  bits b _ := Codec.decode_enc cBits b
  compress _ := rfl
  revAscii r _ := hexEncode_ascii _
  createExt _ _ _ := rfl
  createSubject _ _ _ := rfl
  createIssuer _ _ _ := rfl
  createSKI _ _ _ _ := rfl
  createRawSubject := by
    intro t p k t' p' k' h h'
    simp [xlib, makeCert, h, h']
  createKeepsSubject := by
    intro t p k h
    simp [xlib, makeCert, h]
  createHasSubject := by
    intro t p k h
    simp [xlib, makeCert, h]
  createParse := by
    intro t p k
    simp only [xlib, makeCert]
    rw [Codec.decode_enc]
    rfl

end Ref
end CTng
