import Verif.Model.Json
/-
json.MarshalIndent, as used by util/IO.go:49 (`WriteData`) and Gen/Gen.go:231-242. Part of encoding/json, not of /repo (see
`Model/Json.lean`).
-/
set_option autoImplicit false

namespace CTng
namespace Json

mutual
/-- indent.go `Indent`: `w d` is the line break and the indentation at depth `d`. Empty arrays and objects stay as they are. -/
def indent (w : Nat → Str) (d : Nat) : Json → Str
  | .arr l => 91 :: ((if l.isEmpty then [] else w (d + 1) ++ (indentElems w (d + 1) l ++ w d)) ++ [93])
  | .obj l => 123 :: ((if l.isEmpty then [] else w (d + 1) ++ (indentMembers w (d + 1) l ++ w d)) ++ [125])
  | .null => go!"null"
  | .bool true => go!"true"
  | .bool false => go!"false"
  | .num tok => tok
  | .str s => quote s

def indentElems (w : Nat → Str) (d : Nat) : List Json → Str
  | [] => []
  | x :: t => indent w d x ++ (match t with
    | [] => []
    | _ :: _ => 44 :: (w d ++ indentElems w d t))

def indentMembers (w : Nat → Str) (d : Nat) : List (Str × Json) → Str
  | [] => []
  | m :: t => indentMember w d m ++ (match t with
    | [] => []
    | _ :: _ => 44 :: (w d ++ indentMembers w d t))

def indentMember (w : Nat → Str) (d : Nat) : Str × Json → Str
  | (k, v) => quote k ++ 58 :: 32 :: indent w d v
end

/-- encode.go `MarshalIndent` -/
def marshalIndent (pre ind : Str) (j : Json) : Str := indent (fun d => 10 :: (pre ++ (List.replicate d ind).flatten)) 0 j

end Json
end CTng
