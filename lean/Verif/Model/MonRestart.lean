import Verif.Model.WireMonitor
import Verif.Model.Config
/-
What a monitor leaves on the disk when it stops, and what it has when it is started again.
-/
set_option autoImplicit false

namespace CTng
namespace Wire
open Mon

/-- monitor/types.go:123-129 with util/IO.go:49: the text of CRV.json, from the keys and the compressed vectors
(`map[string][]byte`, each value as base64). -/
def crvText (m : GoMap Str Str) : Str := Json.marshalIndent [] (go!"  ") (jMap (fun b => .str (b64enc b)) m)

/-- monitor/types.go:134-163 `LoadOneStorage` on the contents of the file, `none` for a file that cannot be read: the state,
and whether the error is nil. -/
def loadOneFile (s : MonState) (name : GType) (file : Option Str) : MonState × Bool :=
  match file with
  | none => (s, false)
  | some t =>
    if (unmarshal [] (dList .zero dGossip) t).2 then loadOneStorage s name (unmarshal [] (dList .zero dGossip) t).1 else (s, false)

/-- monitor/types.go:312-361 `InitializeMonitorContext` over the storage directory of a monitor that was stopped: the files
are there, every store is empty. (What the stopped monitor had posted is kept in `sent`, which is no state of the program.
The test programs empty the directory first, see `Model/FileTree.lean`.) -/
def BMon.restart (s : BMon) : BMon :=
  ⟨{ initMonitor with files := s.m.files, crvFile := s.m.crvFile, sent := s.m.sent }, s.disk⟩

/-- util/IO.go:49: a store written as the list of its objects, the form `LoadOneStorage` reads. No program writes one. -/
def listText (l : List GossipObj) : Str := Json.marshalIndent [] (go!"  ") (.arr (l.map gossipJson))

end Wire
end CTng
