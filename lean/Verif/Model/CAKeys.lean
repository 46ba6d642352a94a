import Verif.Model.CA
import Verif.Model.Pem
import Verif.Model.CryptoIO
/- Model of the keys a CA generates for its certificates and of what it saves: CA/ca.go:124-190, CA/types.go:266-294. -/
set_option autoImplicit false

namespace CTng
open Pem

/-- CA/ca.go:124-130 `Generate_N_Subjects` (the common names) -/
def nSubjects (n offset : Nat) : List Str := (List.range n).map fun i => dummySubject i offset

/-- CA/ca.go:146-160 `Generate_and_return_N_KeyPairs`: both maps are assigned for one subject after the other. `sk i` is the key
made for the `i`-th subject, `pubOf` its public key as it is put into certificates. (That NewRSAPrivateKey fails, which leads to a
panic two lines below, is not modelled.) -/
def nKeyPairs {K : Type} (pubOf : K → Str) (subjects : List Str) (sk : Nat → K) : GoMap Str Str × GoMap Str K :=
  (GoMap.empty.assignAll (subjects.zipIdx.map fun e => (e.1, pubOf (sk e.2))),
   GoMap.empty.assignAll (subjects.zipIdx.map fun e => (e.1, sk e.2)))

/-- Events of a CA that are neither the beginning nor the end of a round. -/
def CAEvent.quiet : CAEvent → Bool
  | .start _ => false
  | .finish _ _ => false
  | _ => true

/-- Events of a CA of which the generated private keys are known. -/
inductive KeyedEvent (K : Type) where
  | start (sk : Nat → K)
  | finish (t : Instant) (positions : List Nat)
  | quiet (e : CAEvent) (h : e.quiet = true)

variable {L : Lib} (X : XLib) {K : Type} (pubOf : K → Str)

/-- What CA/ca.go:180-190 `Generate_N_Signed_PreCert_with_priv` puts into the `i`-th certificate: the key found under the name of its
subject -/
def pubFor (n counter : Nat) (sk : Nat → K) (i : Nat) : Str :=
  ((nKeyPairs pubOf (nSubjects n counter) sk).1.get (dummySubject i counter)).getD []

/-- A step of the CA together with `CurrentKeyPool`, which is replaced at the beginning of a round (CA/server.go:354-355) -/
def keyedStep (c : CAConf L) (root : Cert) (st : CAState × GoMap Str K) : KeyedEvent K → Option (CAState × GoMap Str K)
  | .start sk =>
    (caStep X c root st.1 (.start (pubFor pubOf c.certPerPeriod st.1.certCounter sk))).map fun s =>
      (s, (nKeyPairs pubOf (nSubjects c.certPerPeriod st.1.certCounter) sk).2)
  | .finish t pos => (caStep X c root st.1 (.finish t pos)).map fun s => (s, st.2)
  | .quiet e _ => (caStep X c root st.1 e).map fun s => (s, st.2)

def keyedRun (c : CAConf L) (root : Cert) (st : CAState × GoMap Str K) : List (KeyedEvent K) → Option (CAState × GoMap Str K)
  | [] => some st
  | e :: t =>
    match keyedStep X pubOf c root st e with
    | none => none
    | some st' => keyedRun c root st' t

/-- CA/types.go:281-282: the name of a file for a certificate -/
def storedName (x : Cert) (ending : Str) : Str := x.subjectCN ++ go!"_RID_" ++ itoa (x.rid X) ++ ending

/-- CA/types.go:276-283, the loop of `SaveToStorage` that writes certificates and keys. `none` is the panic of
MarshalPKCS8PrivateKey at a nil key. -/
def saveLoop (P : Pkcs8 K) (keyPool : GoMap Str K) (fs : Files) : List Cert → Option Files
  | [] => some fs
  | x :: t =>
    match keyPool.get x.subjectCN with
    | none => none
    | some k =>
      saveLoop P keyPool
        (saveKey P (saveCertificate fs x.raw (storedName X x (go!".crt"))) k (storedName X x (go!".key"))) t

/-- CA/types.go:266-294 `SaveToStorage`. Not modelled: the two files with the extensions and the certificates in JSON at
`StoragePath1` and `StoragePath2`, which are written last. -/
def caSave (P : Pkcs8 K) (sha : Str → Str) (root : Cert) (fs : Files) (st : CAState × GoMap Str K) : Option Files :=
  saveLoop X P st.2 fs (signAll X sha root st.1)

end CTng
