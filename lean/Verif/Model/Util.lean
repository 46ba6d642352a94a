import Verif.Base.GoMap
/- Model of util/helpers.go (clock strings, bit packing, address comparison, random latency) and of
`GenerateRandomBitPositions` (CA/CRV.go:16-30). -/
set_option autoImplicit false

namespace CTng

/-! ### The clock -/

/-- A UTC instant as the fields `time.Format` prints. Leap seconds do not occur in Go's `time`. Years above 9999 (which
RFC 3339 cannot express) are excluded. -/
structure Instant where
  year : Nat
  month : Nat
  day : Nat
  hour : Nat
  minute : Nat
  second : Nat
  year_lt : year < 10000
  month_lt : month < 13
  day_lt : day < 32
  hour_lt : hour < 24
  minute_lt : minute < 60
  second_lt : second < 60

/-- `appendInt(b, n, width)` of package time for non-negative numbers: decimal digits padded with zeros on the left. -/
def padInt (width n : Nat) : Str := List.replicate (width - (itoa n).length) 48 ++ itoa n

/-- `t.UTC().Format(time.RFC3339)` = "2006-01-02T15:04:05Z" (util/helpers.go:104,122,132) -/
def Instant.rfc3339 (t : Instant) : Str :=
  padInt 4 t.year ++ go!"-" ++ padInt 2 t.month ++ go!"-" ++ padInt 2 t.day ++ go!"T" ++ padInt 2 t.hour ++ go!":" ++
    padInt 2 t.minute ++ go!":" ++ padInt 2 t.second ++ go!"Z"

/-- Slice expression `s[a:b]`. (Out of range it panics in Go; the callers below slice a 20 byte string.) -/
def slice (s : Str) (a b : Nat) : Str := (s.drop a).take (b - a)

/-- util/helpers.go:103-106 `GetCurrentMinute` and 116-118 `GetCurrentPeriod` -/
def getCurrentPeriod (t : Instant) : Str := slice t.rfc3339 14 16

/-- Value of a decimal digit character. -/
def digitVal (c : UInt8) : Option Nat := if 48 ≤ c ∧ c ≤ 57 then some (c.toNat - 48) else none

/-- Decimal digits, accumulating. -/
def atoiAux : Str → Nat → Option Nat
  | [], n => some n
  | c :: t, n =>
    match digitVal c with
    | none => none
    | some d => atoiAux t (n * 10 + d)

/-- `strconv.Atoi` on a string without a sign, in the range of `int` (the callers pass two-character slices of a
formatted time or the result of `Itoa`). -/
def atoi (s : Str) : Option Nat := if s = [] then none else atoiAux s 0

/-- CA/server.go:319-326 and Logger/server.go:182-189 `GetCurrentPeriod`: the error of Atoi is ignored, the number it
returns with an error is 0. -/
def getCurrentPeriodNum (t : Instant) : Str := itoa ((atoi (slice t.rfc3339 14 16)).getD 0)

/-- util/helpers.go:121-129 `Getwaitingtime`: `none` is the panic on an unparsable second. -/
def getWaitingTime (mmd : Int) (t : Instant) : Option Int :=
  (atoi (slice t.rfc3339 17 19)).map fun s => mmd - (s : Int)

/-! ### Addresses -/

/-- `strings.Contains(s, sub)` -/
def strContains (s sub : Str) : Bool :=
  match s with
  | [] => sub.isPrefixOf []
  | c :: t => sub.isPrefixOf (c :: t) || strContains t sub

/-- `strings.Split(s, ":")[0]`: everything before the first colon -/
def beforeColon (s : Str) : Str := s.takeWhile (· ≠ 58)

/-- util/helpers.go:88-101 `IsOwner` -/
def isOwner (ownerURL parsedURL : Str) : Bool :=
  if strContains parsedURL (go!"[::1]") then true
  else
    let o := beforeColon ownerURL
    let p := beforeColon parsedURL
    if (o = go!"localhost" ∨ o = go!"[::1]") ∧ (p = go!"localhost" ∨ p = go!"[::1]") then true
    else o = p

/-! ### Bit packing (github.com/Workiva/go-datastructures/bitarray) -/

/-- A dense `bitarray.BitArray`: a list of 64-bit blocks, and the range of block indices its `Blocks()` iterator visits
(the library narrows it by the lowest and highest bit set; the exact narrowing differs between versions, so it is left
open here and constrained by `BitArr.Iterates` where a theorem needs it). -/
structure BitArr where
  blocks : List UInt64
  start : Nat
  stop : Nat

/-- The blocks visited by `for it.Next() { _, b := it.Value() }`. -/
def BitArr.visited (b : BitArr) : List UInt64 := (b.blocks.take b.stop).drop b.start

/-- binary.LittleEndian.PutUint64 -/
def putUint64 (b : UInt64) : Str := (List.range 8).map fun i => UInt8.ofNat (b.toNat / 2 ^ (8 * i) % 256)

/-- util/helpers.go:22-32 `BitsToBytes` -/
def bitsToBytes (b : BitArr) : Str := b.visited.flatMap putUint64

/-- `ba.SetBit(k)`; beyond the capacity it returns an error, which is ignored. -/
def setBit (blocks : List UInt64) (k : Nat) : List UInt64 :=
  if k / 64 < blocks.length then blocks.modify (k / 64) (fun b => b ||| (1 <<< UInt64.ofNat (k % 64))) else blocks

/-- `ba.GetBit(k)`; out of range reads as not set. -/
def getBit (blocks : List UInt64) (k : Nat) : Bool := ((blocks[k / 64]?).getD 0).toNat.testBit (k % 64)

/-- util/helpers.go:36-41: the inner loop over the bits of one byte -/
def setByte (blocks : List UInt64) (i : Nat) (b : UInt8) : List UInt64 :=
  (List.range 8).foldl (fun acc j => if b.toNat &&& 2 ^ j = 2 ^ j then setBit acc (i * 8 + j) else acc) blocks

/-- util/helpers.go:34-44 `BytesToBits`: the blocks of the array built. `NewBitArray(size)` allocates
`ceil(size/64)` zero blocks. -/
def bytesToBlocks (bs : Str) : List UInt64 :=
  (bs.zipIdx).foldl (fun acc (b, i) => setByte acc i b) (List.replicate ((bs.length * 8 + 63) / 64) 0)

/-! ### Randomness -/

/-- CA/CRV.go:16-30, the loop of `GenerateRandomBitPositions`. `rnd i` is the result of the `i`-th call of
`rand.Intn(totalBits)`; `numOnes` is `int(float64(totalBits)*density)`. `positions` (the map) has exactly the elements of
`result`, so only the list is kept. `fuel` bounds the number of draws: `none` means the loop is still running. -/
def randomPositionsLoop (rnd : Nat → Nat) (numOnes : Int) : Nat → Nat → List Nat → Option (List Nat)
  | 0, _, result => if (result.length : Int) < numOnes then none else some result
  | fuel + 1, i, result =>
    if (result.length : Int) < numOnes then
      if rnd i ∈ result then randomPositionsLoop rnd numOnes fuel (i + 1) result
      else randomPositionsLoop rnd numOnes fuel (i + 1) (result ++ [rnd i])
    else some result

/-- CA/CRV.go:16-30 `GenerateRandomBitPositions` returns `r` on the random source `rnd`. -/
def RandomPositions (rnd : Nat → Nat) (numOnes : Int) (r : List Nat) : Prop :=
  ∃ fuel, randomPositionsLoop rnd numOnes fuel 0 [] = some r

/-- util/helpers.go:140-152 `GetRandomLatency`: `draw i` is `int(value)` of the `i`-th draw. -/
def randomLatencyLoop (draw : Nat → Int) (min max : Int) : Nat → Nat → Option Int
  | 0, _ => none
  | fuel + 1, i => if min ≤ draw i ∧ draw i < max then some (draw i) else randomLatencyLoop draw min max fuel (i + 1)

end CTng
