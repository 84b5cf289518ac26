import Verif.Model.Stream

/-
Model of the Script and Witness containers: Script.cpp:256-331, 417-715.
Allocation: requests below 2^63 bytes succeed, larger ones fail.
-/

namespace UB

/-- `lenVarInt` applied to a `size_t`. -/
def lenVarIntN (n : Nat) : Nat := lenVarInt (UInt64.ofNat n)

/-- `int x = byte << k` converted to a 64-bit `size_t`: the sign bit of the 32-bit `int` is extended.
`none`: a shift count of 32 or more is undefined behaviour. -/
def intShl (b : UInt8) (k : Nat) : Option Nat :=
  if 32 ≤ k then none
  else
    let v := b.toNat * 2 ^ k
    some (if 2 ^ 31 ≤ v then v + (2 ^ 64 - 2 ^ 32) else v)

/-- Script.cpp:291-294 and 586-589, the loop
`while(s->available() && pos < lenLen){ len += s->read() << (8*(pos-1)); pos++; }`
run for at most `fuel = lenLen - pos` rounds. `none` is undefined behaviour: a shift by 32 or more,
or a shift of -1. `none` is also the answer when the fourth of eight length bytes is 0x80 or more: the
length is then sign-extended to 2^64-2^31 or more, the sums `scriptLen+lenLen` of the code wrap around, and the
next length byte is undefined behaviour; this dead end is not modelled further (`Script.fromStream64` in
Verif/Props/Parse.lean shows what the code does with it). Result: new `len`, new `pos`, rest of the stream. -/
def lenLoop : Nat → Nat → Nat → PStream → Option (Nat × Nat × PStream)
  | 0, len, pos, s => some (len, pos, s)
  | fuel + 1, len, pos, s =>
    if s.avail then
      match s.read with
      | (none, _) => none
      | (some b, s') =>
        if pos = 4 ∧ fuel = 4 ∧ 0x80 ≤ b then none
        else match intShl b (8 * (pos - 1)) with
        | none => none
        | some v => lenLoop fuel ((len + v) % 2 ^ 64) (pos + 1) s'
    else some (len, pos, s)

/-- Writing the bytes `bs` at position `off` of an allocated block; `none` is out of bounds. -/
def writeAt (arr : Bytes) (off : Nat) (bs : Bytes) : Option Bytes :=
  if bs = [] then some arr
  else if off + bs.length ≤ arr.length then
    some (arr.take off ++ bs ++ arr.drop (off + bs.length))
  else none

/-- Bitcoin.h `class Script` with its `Streamable` members. `arr` is the allocated block
(empty list for NULL); in all reachable states other than in the middle of a length prefix its
size is `scriptLen`. -/
structure Script where
  status : Status := .done
  bytesParsed : Nat := 0
  lenLen : Nat := 0
  scriptLen : Nat := 0
  arr : Bytes := []
deriving DecidableEq, Repr

namespace Script

/-- Script.cpp:256-263 `clear`. (`scriptArray` is non-NULL whenever `scriptLen > 0`.) -/
def clear (sc : Script) : Script :=
  if sc.scriptLen > 0 then { sc with arr := [], scriptLen := 0, lenLen := 0 } else sc

/-- Script.cpp:265-272: the state in which a `from_stream` call starts reading. -/
def start (sc : Script) : Script :=
  let sc := if sc.status = .done then { sc with bytesParsed := 0 }.clear else sc
  { sc with status := .incomplete }

/-- Script.cpp:275-290: first byte of the length prefix. Result: object, `bytes_read`, stream. -/
def readPrefix (sc : Script) (s : PStream) : Script × Nat × PStream :=
  if s.avail ∧ sc.bytesParsed = 0 then
    let (b, s) := s.readByte
    if b < 0xfd then
      ({ sc with scriptLen := b.toNat, lenLen := 1, arr := if b = 0 then sc.arr else zeros b.toNat }, 1, s)
    else
      ({ sc with scriptLen := 0, lenLen := 1 + 2 ^ (b.toNat - 0xfc), arr := zeros 255 }, 1, s)
  else (sc, 0, s)

/-- Script.cpp:305-314: the script bytes and the final status. -/
def readBody (sc : Script) (br : Nat) (s : PStream) : Script × Nat × PStream :=
  let pos := sc.bytesParsed + br
  let (bs, s) := s.readN (sc.scriptLen + sc.lenLen - pos)
  match writeAt sc.arr (pos - sc.lenLen) bs with
  | none => ({ sc with status := .ub }, 0, s)
  | some arr =>
    let br := br + bs.length
    let st := if sc.bytesParsed + br = sc.scriptLen + sc.lenLen then .done else sc.status
    ({ sc with arr := arr, status := st, bytesParsed := sc.bytesParsed + br }, br, s)

/-- Script.cpp:295-304: allocation once the length is known, and the check that the length prefix was
the shortest possible. -/
def alloc (sc : Script) (br : Nat) (s : PStream) : Script × Nat × PStream :=
  if sc.bytesParsed + br = sc.lenLen ∧ sc.scriptLen > 0 ∧ sc.scriptLen ≥ 2 ^ 63 then
    ({ sc with status := .failed, scriptLen := 0, arr := [] }, 0, s)
  else
    let sc := if sc.bytesParsed + br = sc.lenLen ∧ sc.scriptLen > 0 then
      { sc with arr := zeros sc.scriptLen } else sc
    if sc.bytesParsed + br = sc.lenLen ∧ lenVarIntN sc.scriptLen ≠ sc.lenLen then
      ({ sc with status := .failed, bytesParsed := sc.bytesParsed + br }, br, s)
    else readBody sc br s

/-- Script.cpp:264-315 `from_stream`: new object, return value, rest of the stream. -/
def fromStream (sc : Script) (s : PStream) : Script × Nat × PStream :=
  if sc.status = .failed ∨ sc.status = .ub then (sc, 0, s)
  else
    let (sc, br, s) := sc.start.readPrefix s
    match lenLoop (sc.lenLen - (sc.bytesParsed + br)) sc.scriptLen (sc.bytesParsed + br) s with
    | none => ({ sc with status := .ub }, 0, s)
    | some (len, pos, s) => alloc { sc with scriptLen := len } (pos - sc.bytesParsed) s

/-- Script.cpp:417-419 `length`. -/
def length (sc : Script) : Nat := sc.scriptLen + lenVarIntN sc.scriptLen

/-- Script.cpp:316-331 `to_stream`. -/
def toStream (sc : Script) (cap : Option Nat) (offset : Nat) : C Bytes := do
  let l := lenVarIntN sc.scriptLen
  let (_, arr) ← writeVarInt (UInt64.ofNat sc.scriptLen) (zeros 10)
  let s : Ser := ⟨cap, []⟩
  let s ← s.emit arr 0 l offset
  let s ← s.emit sc.arr l (l + sc.scriptLen) offset
  return s.out

/-- Script.cpp:12. -/
def maxScriptSize : Nat := 10000

/-- Script.cpp:420-437 `push(uint8_t code)`. -/
def pushByte (sc : Script) (code : UInt8) : Script × Nat :=
  if sc.scriptLen + 1 > maxScriptSize then (sc.clear, 0)
  else
    let n := sc.scriptLen + 1
    ({ sc with scriptLen := n, arr := sc.arr.take sc.scriptLen ++ [code] }, n)

/-- Script.cpp:438-454 `push(const uint8_t * data, size_t len)`.
`calloc(0)` is taken to return a non-NULL block. -/
def pushData (sc : Script) (data : Bytes) : Script × Nat :=
  if sc.scriptLen + data.length > maxScriptSize then (sc.clear, 0)
  else
    let n := sc.scriptLen + data.length
    ({ sc with scriptLen := n, arr := sc.arr.take sc.scriptLen ++ data }, n)

/-- Script.cpp:136-139 `Script(buffer, len)`. -/
def ofBuffer (data : Bytes) : Script := (({} : Script).pushData data).1

/-- Script.cpp:470-478 `push(const Script sc)`: pushes the serialization of `sc`. -/
def pushScript (sc other : Script) : C (Script × Nat) := do
  let (_, tmp) ← serialize other.toStream other.length 0 .raw
  let r := (sc.pushData tmp).1
  return (r, r.scriptLen)

/-- Script.cpp:495-503 copy constructor. -/
def copy (other : Script) : Script :=
  if other.scriptLen > 0 then { scriptLen := other.scriptLen, arr := other.arr.take other.scriptLen } else {}

/-- Script.cpp:483-494 `operator=`: `lenLen` of the target survives when it was empty. -/
def assign (self other : Script) : Script :=
  let self := { self with status := .done, bytesParsed := 0 }.clear
  if other.scriptLen > 0 then
    { self with scriptLen := other.scriptLen, arr := other.arr.take other.scriptLen } else self

end Script

/-- Bitcoin.h:551-590 `class Witness`; `witnessLen` is the size of `arr`. -/
structure Witness where
  status : Status := .done
  bytesParsed : Nat := 0
  lenLen : Nat := 0
  numElements : Nat := 0
  curElement : Nat := 0
  curElementLen : Nat := 0
  curBytesParsed : Nat := 0
  curLen : Nat := 0
  arr : Bytes := []
deriving DecidableEq, Repr

namespace Witness

/-- Script.cpp:507-513 `clear`. (That `witnessArray` is left dangling is not represented here.) -/
def clear (w : Witness) : Witness := { w with numElements := 0, arr := [] }

/-- Bitcoin.h:564 `reset`. -/
def reset (w : Witness) : Witness :=
  { w with status := .done, bytesParsed := 0, curElementLen := 0, curBytesParsed := 0, curElement := 0, lenLen := 0 }

/-- Script.cpp:536-548: the state in which a `from_stream` call starts reading. -/
def start (w : Witness) : Witness :=
  let w := if w.status = .done then { w with curLen := 0 }.reset.clear else w
  { w with status := .incomplete }

/-- Script.cpp:572-589, length prefix of one element: `none` is undefined behaviour. The object
holds the new `curLen`, `curElementLen`; then `cur_bytes_read` and the stream. -/
def elemLen (w : Witness) (s : PStream) : Option (Witness × Nat × PStream) :=
  let (w, cr, s) :=
    if s.avail ∧ w.curBytesParsed = 0 then
      let (b, s) := s.readByte
      if b < 0xfd then ({ w with curElementLen := b.toNat, curLen := 1 }, 1, s)
      else ({ w with curElementLen := 0, curLen := 1 + 2 ^ (b.toNat - 0xfc) }, 1, s)
    else (w, 0, s)
  match lenLoop (w.curLen - (w.curBytesParsed + cr)) w.curElementLen (w.curBytesParsed + cr) s with
  | none => none
  | some (len, pos, s) => some ({ w with curElementLen := len }, pos - w.curBytesParsed, s)

/-- Script.cpp:597-610: room for the element is appended to the block and its length prefix written
at `offset`; bytes of the enlarged block which `realloc` leaves unspecified are taken as 0.
`none` is an out-of-bounds write. -/
def elemAlloc (w : Witness) (cr offset : Nat) : Option Witness :=
  if w.curBytesParsed + cr = w.curLen ∧ cr > 0 then
    let l := lenVarIntN w.curElementLen
    match writeVarInt (UInt64.ofNat w.curElementLen) (zeros l) with
    | .ub => none
    | .ok (_, vi) =>
      if w.arr = [] then
        match writeAt (zeros (w.curElementLen + l)) 0 vi with
        | none => none
        | some arr => some { w with arr := arr }
      else
        match writeAt (w.arr ++ zeros (w.curElementLen + l)) offset vi with
        | none => none
        | some arr => some { w with arr := arr }
  else some w

/-- Outcome of one round of the element loop. -/
inductive Round where
  /-- the round ended normally: object, `cur_bytes_read`, stream -/
  | next (w : Witness) (cr : Nat) (s : PStream)
  /-- `return` from within the loop with status FAILED -/
  | fail (w : Witness) (cr : Nat) (s : PStream)
  | ub (s : PStream)

/-- Script.cpp:571-624: one round of the element loop, `pos = bytes_parsed+bytes_read`. (An element
length of 2^63 or more, for which the allocation would fail, has a negative 32-bit length and is already
rejected by the shortest-prefix check, so allocation failure does not occur.) -/
def round (w : Witness) (pos : Nat) (s : PStream) : Round :=
  let offset := pos - lenVarIntN w.numElements - w.curBytesParsed
  match w.elemLen s with
  | none => .ub s
  | some (w, cr, s) =>
    if lenVarIntN w.curElementLen ≠ w.curLen ∧ w.curBytesParsed + cr = w.curLen then
      .fail { w with status := .failed, curBytesParsed := w.curBytesParsed + cr } cr s
    else
      match w.elemAlloc cr offset with
      | none => .ub s
      | some w =>
        let total := w.curElementLen + lenVarIntN w.curElementLen
        let (bs, s) := s.readN (total - (w.curBytesParsed + cr))
        match writeAt w.arr (offset + w.curBytesParsed + cr) bs with
        | none => .ub s
        | some arr =>
          let w := { w with arr := arr }
          let cr := cr + bs.length
          if w.curBytesParsed + cr = total then
            .next { w with curLen := 0, curElementLen := 0, curElement := w.curElement + 1, curBytesParsed := 0 } cr s
          else .next { w with curBytesParsed := w.curBytesParsed + cr } cr s

/-- Script.cpp:570-630: the element loop and the end of `from_stream`. Every round either completes an
element or exhausts the stream, so `fuel = numElements - curElement` rounds suffice. -/
def loop : Nat → Witness → Nat → PStream → Witness × Nat × PStream
  | 0, w, br, s => finish w br s
  | fuel + 1, w, br, s =>
    if s.avail ∧ w.curElement < w.numElements then
      match w.round (w.bytesParsed + br) s with
      | .ub s => ({ w with status := .ub }, 0, s)
      | .fail w cr s => ({ w with bytesParsed := w.bytesParsed + (br + cr) }, br + cr, s)
      | .next w cr s => loop fuel w (br + cr) s
    else finish w br s
where
  /-- Script.cpp:626-630. -/
  finish (w : Witness) (br : Nat) (s : PStream) : Witness × Nat × PStream :=
    let st := if w.curElement = w.numElements then .done else w.status
    ({ w with status := st, bytesParsed := w.bytesParsed + br }, br, s)

/-- Script.cpp:535-631 `from_stream`: new object, return value, rest of the stream. -/
def fromStream (w : Witness) (s : PStream) : Witness × Nat × PStream :=
  if w.status = .failed ∨ w.status = .ub then (w, 0, s)
  else
    let w := w.start
    if s.avail ∧ w.bytesParsed = 0 then
      let (b, s) := s.readByte
      if b < 0xfd then
        let w := { w with numElements := b.toNat, lenLen := 1 }
        body w 1 s
      else ({ w with lenLen := b.toNat, numElements := 0, status := .failed, bytesParsed := w.bytesParsed + 1 }, 1, s)
    else body w 0 s
where
  /-- Script.cpp:564-631. -/
  body (w : Witness) (br : Nat) (s : PStream) : Witness × Nat × PStream :=
    if w.bytesParsed + br = w.lenLen ∧ lenVarIntN w.numElements ≠ w.lenLen then
      ({ w with status := .failed, bytesParsed := w.bytesParsed + br }, br, s)
    else loop (w.numElements - w.curElement) w br s

/-- Script.cpp:648-650 `length`. -/
def length (w : Witness) : Nat := w.arr.length + lenVarIntN w.numElements

/-- Script.cpp:632-647 `to_stream`. -/
def toStream (w : Witness) (cap : Option Nat) (offset : Nat) : C Bytes := do
  let l := lenVarIntN w.numElements
  let (_, arr) ← writeVarInt (UInt64.ofNat w.numElements) (zeros 10)
  let s : Ser := ⟨cap, []⟩
  let s ← s.emit arr 0 l offset
  let s ← s.emit w.arr l (l + w.arr.length) offset
  return s.out

/-- Script.cpp:651-669 `push(data, len)`. -/
def push (w : Witness) (data : Bytes) : C (Witness × Nat) :=
  let l := lenVarIntN data.length
  if w.arr.length + data.length + l > Script.maxScriptSize then .ok (w.clear, 0)
  else do
    let (_, vi) ← writeVarInt (UInt64.ofNat data.length) (zeros l)
    let w := { w with arr := w.arr ++ vi ++ data, numElements := (w.numElements + 1) % 2 ^ 32 }
    return (w, w.arr.length)

/-- Script.cpp:683-693 `push(const Script sc)`: the script is serialized, its length prefix read back, and
the last `dl` bytes pushed. -/
def pushScript (w : Witness) (sc : Script) : C (Witness × Nat) := do
  let (l, tmp) ← serialize sc.toStream sc.length 0 .raw
  let dl ← readVarInt tmp
  if l < dl.toNat then .ub
  else do
    let data ← load tmp (l - dl.toNat) dl.toNat
    let (w, _) ← w.push data
    return (w, w.arr.length)

/-- Script.cpp:694-703 copy constructor. -/
def copy (other : Witness) : Witness := { numElements := other.numElements, arr := other.arr }

/-- Script.cpp:704-715 `operator=`: parsing state of the target is kept. -/
def assign (self other : Witness) : Witness := { self with numElements := other.numElements, arr := other.arr }

end Witness

end UB
