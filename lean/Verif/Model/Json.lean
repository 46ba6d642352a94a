import Verif.Model.Util
import Verif.Model.Crypto
/-
Model of encoding/json (Go 1.19, the version in go.mod) as far as the project uses it: the text syntax with string escapes and
UTF-8 repair, and decoding into Go values with field matching, null, and type errors. The library is not part of /repo; the
model is written from its documented behaviour. Not modelled: the limit of 10000 nested values, floating point values,
`interface{}` targets and custom (un)marshalers.
-/
set_option autoImplicit false

namespace CTng

/-- A JSON value. A number is kept as its text, as in the decoder. -/
inductive Json where
  | null
  | bool (b : Bool)
  | num (tok : Str)
  | str (s : Str)
  /-- an array, element by element -/
  | arr (l : List Json)
  | obj (l : List (Str × Json))

namespace Json

/-! ### UTF-8 (unicode/utf8) -/

/-- A continuation byte. -/
def cont (c : UInt8) : Bool := 128 ≤ c && c ≤ 191

/-- The second byte of a three byte rune. -/
def second3 (c a : UInt8) : Bool :=
  if c = 224 then 160 ≤ a && a ≤ 191 else if c = 237 then 128 ≤ a && a ≤ 159 else cont a

/-- The second byte of a four byte rune. -/
def second4 (c a : UInt8) : Bool :=
  if c = 240 then 144 ≤ a && a ≤ 191 else if c = 244 then 128 ≤ a && a ≤ 143 else cont a

def tail2 : Str → Bool
  | a :: _ => cont a
  | _ => false

def tail3 (c : UInt8) : Str → Bool
  | a :: b :: _ => second3 c a && cont b
  | _ => false

def tail4 (c : UInt8) : Str → Bool
  | a :: b :: d :: _ => second4 c a && cont b && cont d
  | _ => false

/-- The size utf8.DecodeRune reports for the front of a string, and 0 where it reports an error. -/
def runeLen : Str → Nat
  | [] => 0
  | c :: t =>
    if c < 128 then 1
    else if 194 ≤ c ∧ c ≤ 223 then if tail2 t then 2 else 0
    else if 224 ≤ c ∧ c ≤ 239 then if tail3 c t then 3 else 0
    else if 240 ≤ c ∧ c ≤ 244 then if tail4 c t then 4 else 0
    else 0

/-- U+FFFD in UTF-8 -/
def replacement : Str := [239, 191, 189]

/-- utf8.EncodeRune -/
def utf8Enc (n : Nat) : Str :=
  if n < 0x80 then [UInt8.ofNat n]
  else if n < 0x800 then [UInt8.ofNat (0xC0 + n / 64), UInt8.ofNat (0x80 + n % 64)]
  else if (0xD800 ≤ n ∧ n < 0xE000) ∨ 0x10FFFF < n then replacement
  else if n < 0x10000 then [UInt8.ofNat (0xE0 + n / 4096), UInt8.ofNat (0x80 + n / 64 % 64), UInt8.ofNat (0x80 + n % 64)]
  else [UInt8.ofNat (0xF0 + n / 262144), UInt8.ofNat (0x80 + n / 4096 % 64), UInt8.ofNat (0x80 + n / 64 % 64),
    UInt8.ofNat (0x80 + n % 64)]

/-- The string with every invalid byte replaced, at most `n` runes of it. -/
def sanitizeN : Nat → Str → Str
  | 0, _ => []
  | _ + 1, [] => []
  | n + 1, c :: t =>
    match runeLen (c :: t) with
    | 0 => replacement ++ sanitizeN n t
    | k + 1 => c :: t.take k ++ sanitizeN n (t.drop k)

/-- What a Go string becomes on the way through JSON: invalid bytes become U+FFFD. -/
def sanitize (s : Str) : Str := sanitizeN s.length s

/-! ### Strings -/

/-- encode.go `encodeState.string` for an ASCII byte (with HTML escaping, the default) -/
def escByte (c : UInt8) : Str :=
  if c = 34 ∨ c = 92 then [92, c]
  else if c = 10 then go!"\\n"
  else if c = 13 then go!"\\r"
  else if c = 9 then go!"\\t"
  else if c < 32 ∨ c = 60 ∨ c = 62 ∨ c = 38 then go!"\\u00" ++ [hexDigit (c / 16), hexDigit (c % 16)]
  else [c]

/-- encode.go `encodeState.string`: the text between the quotes, at most `n` runes -/
def quoteN : Nat → Str → Str
  | 0, _ => []
  | _ + 1, [] => []
  | n + 1, c :: t =>
    if c < 128 then escByte c ++ quoteN n t
    else
      match runeLen (c :: t) with
      | 0 => go!"\\ufffd" ++ quoteN n t
      | k + 1 =>
        (if c = 226 ∧ t.take 2 = [128, 168] then go!"\\u2028"
         else if c = 226 ∧ t.take 2 = [128, 169] then go!"\\u2029"
         else c :: t.take k) ++ quoteN n (t.drop k)

/-- json.Marshal of a string -/
def quote (s : Str) : Str := 34 :: quoteN s.length s ++ [34]

/-- decode.go `getu4` without the leading `\u` -/
def hex4 : Str → Option (Nat × Str)
  | a :: b :: c :: d :: t =>
    match fromHexDigit a, fromHexDigit b, fromHexDigit c, fromHexDigit d with
    | some a, some b, some c, some d => some (a.toNat * 4096 + b.toNat * 256 + c.toNat * 16 + d.toNat, t)
    | _, _, _, _ => none
  | _ => none

/-- The second half of a surrogate pair at the front of the text. -/
def lowHalf (s : Str) : Option (Nat × Str) :=
  match s with
  | 92 :: 117 :: t =>
    match hex4 t with
    | some (n, r) => if 0xDC00 ≤ n ∧ n < 0xE000 then some (n, r) else none
    | none => none
  | _ => none

/-- decode.go `unquoteBytes`: the bytes an escape sequence (after the backslash) stands for, and the rest -/
def escape : Str → Option (Str × Str)
  | [] => none
  | c :: t =>
    if c = 34 ∨ c = 92 ∨ c = 47 then some ([c], t)
    else if c = 98 then some ([8], t)
    else if c = 102 then some ([12], t)
    else if c = 110 then some ([10], t)
    else if c = 114 then some ([13], t)
    else if c = 116 then some ([9], t)
    else if c = 117 then
      match hex4 t with
      | none => none
      | some (n, r) =>
        if 0xD800 ≤ n ∧ n < 0xE000 then
          match (if n < 0xDC00 then lowHalf r else none) with
          | some (m, r') => some (utf8Enc (0x10000 + (n - 0xD800) * 1024 + (m - 0xDC00)), r')
          | none => some (replacement, r)
        else some (utf8Enc n, r)
    else none

/-- The bytes of one step of `unquoteBytes` inside a string (not at the closing quote), and the rest. -/
def chunk : Str → Option (Str × Str)
  | [] => none
  | c :: t =>
    if c = 92 then escape t
    else if c < 32 then none
    else
      match runeLen (c :: t) with
      | 0 => some (replacement, t)
      | k + 1 => some (c :: t.take k, t.drop k)

/-- scanner.go `stateInString` and decode.go `unquoteBytes`: the string up to the closing quote, and the text after it -/
def strBody : Nat → Str → Option (Str × Str)
  | 0, _ => none
  | n + 1, s =>
    match s with
    | [] => none
    | c :: t =>
      if c = 34 then some ([], t)
      else
        match chunk (c :: t) with
        | none => none
        | some (b, r) => (strBody n r).map fun x => (b ++ x.1, x.2)

/-! ### Numbers -/

def isDigit (c : UInt8) : Bool := 48 ≤ c && c ≤ 57

/-- The digits at the front, and the rest. -/
def digits : Str → Str × Str
  | [] => ([], [])
  | c :: t => if isDigit c then (c :: (digits t).1, (digits t).2) else ([], c :: t)

/-- scanner.go: the integer part after an optional minus (`state0`, `state1`) -/
def intPart : Str → Option (Str × Str)
  | [] => none
  | c :: t => if c = 48 then some ([48], t) else if isDigit c then some (c :: (digits t).1, (digits t).2) else none

/-- scanner.go: an optional fraction (`stateDot`, `stateDot0`) -/
def fracPart : Str → Option (Str × Str)
  | 46 :: t => if (digits t).1 = [] then none else some (46 :: (digits t).1, (digits t).2)
  | s => some ([], s)

/-- scanner.go: an optional exponent (`stateE`, `stateESign`, `stateE0`) -/
def expPart (s : Str) : Option (Str × Str) :=
  match s with
  | [] => some ([], [])
  | c :: t =>
    if c = 101 ∨ c = 69 then
      match t with
      | [] => none
      | d :: u =>
        if d = 43 ∨ d = 45 then if (digits u).1 = [] then none else some (c :: d :: (digits u).1, (digits u).2)
        else if (digits t).1 = [] then none else some (c :: (digits t).1, (digits t).2)
    else some ([], s)

/-- scanner.go `stateNeg`: an optional minus -/
def signPart : Str → Str × Str
  | [] => ([], [])
  | c :: t => if c = 45 then ([45], t) else ([], c :: t)

/-- A number and the text after it. -/
def number (s : Str) : Option (Str × Str) :=
  match intPart (signPart s).2 with
  | none => none
  | some (i, r) =>
    match fracPart r with
    | none => none
    | some (f, r) =>
      match expPart r with
      | none => none
      | some (e, r) => some ((signPart s).1 ++ i ++ f ++ e, r)

/-! ### Values -/

/-- scanner.go `isSpace` -/
def isSpace (c : UInt8) : Bool := c = 32 || c = 9 || c = 13 || c = 10

def skipWs : Str → Str
  | [] => []
  | c :: t => if isSpace c then skipWs t else c :: t

/-- The text after `p`, if it starts with `p`. -/
def literal : Str → Str → Option Str
  | [], s => some s
  | _ :: _, [] => none
  | a :: p, c :: s => if a = c then literal p s else none

mutual
/-- scanner.go `stateBeginValue`, decode.go `value`: one value at the front of the text, and the rest. The first argument
bounds the recursion. -/
def value : Nat → Str → Option (Json × Str)
  | 0, _ => none
  | n + 1, s =>
    match skipWs s with
    | [] => none
    | c :: t =>
      if c = 34 then (strBody (t.length + 1) t).map fun x => (.str x.1, x.2)
      else if c = 123 then
        match skipWs t with
        | 125 :: r => some (.obj [], r)
        | t => (members n t).map fun x => (.obj x.1, x.2)
      else if c = 91 then
        match skipWs t with
        | 93 :: r => some (.arr [], r)
        | t => (elems n t).map fun x => (.arr x.1, x.2)
      else if c = 116 then (literal (go!"rue") t).map fun r => (.bool true, r)
      else if c = 102 then (literal (go!"alse") t).map fun r => (.bool false, r)
      else if c = 110 then (literal (go!"ull") t).map fun r => (.null, r)
      else (number (c :: t)).map fun x => (.num x.1, x.2)

/-- The elements of an array after `[` or `,`. -/
def elems : Nat → Str → Option (List Json × Str)
  | 0, _ => none
  | n + 1, s =>
    match value n s with
    | none => none
    | some (v, r) =>
      match skipWs r with
      | [] => none
      | c :: r => if c = 44 then (elems n r).map fun x => (v :: x.1, x.2) else if c = 93 then some ([v], r) else none

/-- The members of an object after `{` or `,`. -/
def members : Nat → Str → Option (List (Str × Json) × Str)
  | 0, _ => none
  | n + 1, s =>
    match skipWs s with
    | [] => none
    | c :: t =>
      if c = 34 then
        match strBody (t.length + 1) t with
        | none => none
        | some (k, r) =>
          match skipWs r with
          | [] => none
          | c :: r =>
            if c = 58 then
              match value n r with
              | none => none
              | some (v, r) =>
                match skipWs r with
                | [] => none
                | c :: r =>
                  if c = 44 then (members n r).map fun x => ((k, v) :: x.1, x.2)
                  else if c = 125 then some ([(k, v)], r) else none
            else none
      else none
end

/-- json.Valid and the parse of json.Unmarshal: the text is one value and white space -/
def parse (s : Str) : Option Json :=
  match value (2 * s.length + 2) s with
  | some (j, r) => if skipWs r = [] then some j else none
  | none => none

/-- The parse of json.Decoder.Decode: the first value of the stream, whatever follows it -/
def parseFirst (s : Str) : Option Json := (value (2 * s.length + 2) s).map (·.1)

/-! ### Output -/

mutual
/-- json.Marshal: the text of a value, without white space -/
def render : Json → Str
  | .null => go!"null"
  | .bool true => go!"true"
  | .bool false => go!"false"
  | .num tok => tok
  | .str s => quote s
  | .arr l => 91 :: (renderElems l ++ [93])
  | .obj l => 123 :: (renderMembers l ++ [125])

def renderElems : List Json → Str
  | [] => []
  | x :: t => render x ++ (match t with
    | [] => []
    | _ :: _ => 44 :: renderElems t)

def renderMembers : List (Str × Json) → Str
  | [] => []
  | m :: t => renderMember m ++ (match t with
    | [] => []
    | _ :: _ => 44 :: renderMembers t)

def renderMember : Str × Json → Str
  | (k, v) => quote k ++ 58 :: render v
end

mutual
/-- What comes back from the text of a value: invalid UTF-8 is replaced. -/
def clean : Json → Json
  | .null => .null
  | .bool b => .bool b
  | .num tok => .num tok
  | .str s => .str (sanitize s)
  | .arr l => .arr (cleanElems l)
  | .obj l => .obj (cleanMembers l)

def cleanElems : List Json → List Json
  | [] => []
  | x :: t => clean x :: cleanElems t

def cleanMembers : List (Str × Json) → List (Str × Json)
  | [] => []
  | m :: t => cleanMember m :: cleanMembers t

def cleanMember : Str × Json → Str × Json
  | (k, v) => (sanitize k, clean v)
end

mutual
/-- The numbers of the value are written as Go writes integers and non-negative decimal fractions. -/
def NumOk : Json → Prop
  | .num tok => (∃ n, tok = itoa n) ∨ (∃ n, tok = 45 :: itoa (n + 1)) ∨
      ∃ n d, d ≠ [] ∧ (∀ c ∈ d, isDigit c = true) ∧ tok = itoa n ++ 46 :: d
  | .arr l => NumOkElems l
  | .obj l => NumOkMembers l
  | _ => True

def NumOkElems : List Json → Prop
  | [] => True
  | x :: t => NumOk x ∧ NumOkElems t

def NumOkMembers : List (Str × Json) → Prop
  | [] => True
  | m :: t => NumOkMember m ∧ NumOkMembers t

def NumOkMember : Str × Json → Prop
  | (_, v) => NumOk v
end

end Json
end CTng
