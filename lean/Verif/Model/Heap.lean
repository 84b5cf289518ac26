import Verif.Model.Script

/-
The dynamically allocated memory behind `Script` and `Witness`: Script.cpp:256-315, 417-505, 507-715, Bitcoin.h:475-590.
Model/Script.lean treats the memory of an object as part of its value; here the pointers `scriptArray` and `witnessArray` are addresses
in a heap shared by all objects, and `free`, `realloc` and accesses are undefined behaviour where C says so.

Simplifications: an address that has been given back is never handed out again (a second `free` or an access to it is undefined
behaviour anyway); memory that `realloc` leaves unspecified reads as 0.
-/

namespace UB


/-- The heap. Addresses are numbers, NULL is 0: the allocated blocks, the number of requests made so far, and the allocator's answer: `denies n size` is true when the
`n`-th request, for `size` bytes, fails. -/
structure Heap where
  blocks : Nat → Option Bytes
  next : Nat
  denies : Nat → Nat → Bool

namespace Heap

/-- The block at `p` replaced. -/
def set (h : Heap) (p : Nat) (b : Option Bytes) : Heap := { h with blocks := fun q => if q = p then b else h.blocks q }

/-- `calloc(n, 1)`. -/
def calloc (h : Heap) (n : Nat) : Nat × Heap :=
  if h.denies h.next n then (0, { h with next := h.next + 1 })
  else (h.next + 1, { h.set (h.next + 1) (some (zeros n)) with next := h.next + 1 })

/-- `free(p)`. -/
def free (h : Heap) (p : Nat) : C Heap :=
  if p = 0 then .ok h
  else match h.blocks p with
    | none => .ub
    | some _ => .ok (h.set p none)

/-- `realloc(p, n)` with `n > 0`. When the request fails the old block stays. -/
def realloc (h : Heap) (p : Nat) (n : Nat) : C (Nat × Heap) :=
  if p = 0 then .ok (h.calloc n)
  else match h.blocks p with
    | none => .ub
    | some b =>
      if h.denies h.next n then .ok (0, { h with next := h.next + 1 })
      else .ok (h.next + 1, { (h.set p none).set (h.next + 1) (some (b.take n ++ zeros (n - b.length))) with next := h.next + 1 })

/-- Reading `n` bytes at `p + off`. -/
def read (h : Heap) (p : Nat) (off n : Nat) : C Bytes :=
  if n = 0 then .ok []
  else match h.blocks p with
    | none => .ub
    | some b => if off + n ≤ b.length then .ok ((b.drop off).take n) else .ub

/-- Writing the bytes `bs` at `p + off`. -/
def write (h : Heap) (p : Nat) (off : Nat) (bs : Bytes) : C Heap :=
  if bs = [] then .ok h
  else match h.blocks p with
    | none => .ub
    | some b => match writeAt b off bs with
      | none => .ub
      | some b' => .ok (h.set p (some b'))

end Heap

/-- Bitcoin.h:475-484 `class Script`: the members of an object. -/
structure HScript where
  status : Status := .done
  bytesParsed : Nat := 0
  lenLen : Nat := 0
  scriptLen : Nat := 0
  ptr : Nat := 0
deriving DecidableEq, Repr

namespace HScript

/-- Script.cpp:256-263 `clear`. -/
def clear (sc : HScript) (h : Heap) : C (HScript × Heap) :=
  if sc.scriptLen > 0 ∧ sc.ptr ≠ 0 then do
    let h ← h.free sc.ptr
    return ({ sc with ptr := 0, scriptLen := 0, lenLen := 0 }, h)
  else return (sc, h)

/-- Bitcoin.h:503, the destructor. -/
def destroy (sc : HScript) (h : Heap) : C Heap := if sc.ptr ≠ 0 then h.free sc.ptr else return h

/-- Script.cpp:268-272: the state in which a `from_stream` call starts reading. -/
def start (sc : HScript) (h : Heap) : C (HScript × Heap) := do
  let (sc, h) ← if sc.status = .done then ({ sc with bytesParsed := 0 } : HScript).clear h else pure (sc, h)
  return ({ sc with status := .incomplete }, h)

/-- Script.cpp:275-290: first byte of the length prefix. Status `failed` is the `return 0` of line 289. -/
def readPrefix (sc : HScript) (h : Heap) (s : PStream) : HScript × Nat × PStream × Heap :=
  if s.avail ∧ sc.bytesParsed = 0 then
    let (b, s) := s.readByte
    if b < 0xfd then
      let (p, h) := if b.toNat > 0 then h.calloc b.toNat else (sc.ptr, h)
      if p = 0 ∧ b.toNat > 0 then ({ sc with lenLen := 1, ptr := p, status := .failed, scriptLen := 0 }, 0, s, h)
      else ({ sc with lenLen := 1, ptr := p, scriptLen := b.toNat }, 1, s, h)
    else
      let (p, h) := h.calloc 255
      ({ sc with scriptLen := 0, lenLen := 1 + 2 ^ (b.toNat - 0xfc), ptr := p }, 1, s, h)
  else (sc, 0, s, h)

/-- Script.cpp:305-314: the script bytes and the final status. -/
def readBody (sc : HScript) (br : Nat) (s : PStream) (h : Heap) : C (HScript × Nat × PStream × Heap) := do
  let pos := sc.bytesParsed + br
  let (bs, s) := s.readN (sc.scriptLen + sc.lenLen - pos)
  let h ← h.write sc.ptr (pos - sc.lenLen) bs
  let br := br + bs.length
  let st := if sc.bytesParsed + br = sc.scriptLen + sc.lenLen then .done else sc.status
  return ({ sc with status := st, bytesParsed := sc.bytesParsed + br }, br, s, h)

/-- Script.cpp:295-299: once the length is known the block is exchanged for one of that size. -/
def swap (sc : HScript) (br : Nat) (h : Heap) : C (HScript × Heap) :=
  if sc.bytesParsed + br = sc.lenLen ∧ sc.scriptLen > 0 then do
    let h ← h.free sc.ptr
    let (p, h) := h.calloc sc.scriptLen
    if p = 0 then return ({ sc with ptr := p, status := .failed, scriptLen := 0 }, h)
    else return ({ sc with ptr := p }, h)
  else return (sc, h)

/-- Script.cpp:264-315 `from_stream`: new object, return value, rest of the stream, heap. -/
def fromStream (sc : HScript) (s : PStream) (h : Heap) : C (HScript × Nat × PStream × Heap) :=
  if sc.status = .failed ∨ sc.status = .ub then return (sc, 0, s, h)
  else do
    let (sc, h) ← sc.start h
    let (sc, br, s, h) := sc.readPrefix h s
    if sc.status = .failed then return (sc, 0, s, h)
    else match lenLoop (sc.lenLen - (sc.bytesParsed + br)) sc.scriptLen (sc.bytesParsed + br) s with
      | none => .ub
      | some (len, pos, s) => do
        let br := pos - sc.bytesParsed
        let (sc, h) ← { sc with scriptLen := len }.swap br h
        if sc.status = .failed then return (sc, 0, s, h)
        else if sc.bytesParsed + br = sc.lenLen ∧ lenVarIntN sc.scriptLen ≠ sc.lenLen then
          return ({ sc with status := .failed, bytesParsed := sc.bytesParsed + br }, br, s, h)
        else sc.readBody br s h

/-- Script.cpp:420-437 `push(uint8_t code)`. -/
def pushByte (sc : HScript) (code : UInt8) (h : Heap) : C (HScript × Nat × Heap) :=
  if sc.scriptLen + 1 > Script.maxScriptSize then do
    let (sc, h) ← sc.clear h
    return (sc, 0, h)
  else if sc.scriptLen = 0 then do
    let (p, h) := h.calloc 1
    if p = 0 then return ({ sc with ptr := p, scriptLen := 0 }, 0, h)
    else
      let h ← h.write p 0 [code]
      return ({ sc with ptr := p, scriptLen := 1 }, 1, h)
  else do
    let (p, h) ← h.realloc sc.ptr (sc.scriptLen + 1)
    if p = 0 then
      let h ← h.free sc.ptr
      return ({ sc with ptr := 0, scriptLen := 0 }, 0, h)
    else
      let h ← h.write p sc.scriptLen [code]
      return ({ sc with ptr := p, scriptLen := sc.scriptLen + 1 }, sc.scriptLen + 1, h)

/-- Script.cpp:438-454 `push(const uint8_t * data, size_t len)`; the bytes of `data` lie outside the object's own block. -/
def pushData (sc : HScript) (data : Bytes) (h : Heap) : C (HScript × Nat × Heap) :=
  if sc.scriptLen + data.length > Script.maxScriptSize then do
    let (sc, h) ← sc.clear h
    return (sc, 0, h)
  else if sc.scriptLen = 0 then do
    let (p, h) := h.calloc data.length
    if p = 0 then return ({ sc with ptr := p, scriptLen := 0 }, 0, h)
    else
      let h ← h.write p 0 data
      return ({ sc with ptr := p, scriptLen := data.length }, data.length, h)
  else do
    let (p, h) ← h.realloc sc.ptr (sc.scriptLen + data.length)
    if p = 0 then
      let h ← h.free sc.ptr
      return ({ sc with ptr := 0, scriptLen := 0 }, 0, h)
    else
      let h ← h.write p sc.scriptLen data
      return ({ sc with ptr := p, scriptLen := sc.scriptLen + data.length }, sc.scriptLen + data.length, h)

/-- Script.cpp:136-139 `Script(buffer, len)`. -/
def ofBuffer (data : Bytes) (h : Heap) : C (HScript × Heap) := do
  let (sc, _, h) ← ({} : HScript).pushData data h
  return (sc, h)

/-- Script.cpp:483-494 from line 487 on, and 497-502: the contents of `other` into a new block. -/
def take (sc other : HScript) (h : Heap) : C (HScript × Heap) :=
  if other.scriptLen > 0 then do
    let (p, h) := h.calloc other.scriptLen
    if p = 0 then return ({ sc with ptr := p, scriptLen := 0 }, h)
    else
      let bs ← h.read other.ptr 0 other.scriptLen
      let h ← h.write p 0 bs
      return ({ sc with ptr := p, scriptLen := other.scriptLen }, h)
  else return (sc, h)

/-- Script.cpp:495-503 copy constructor. -/
def copy (other : HScript) (h : Heap) : C (HScript × Heap) := take {} other h

/-- Script.cpp:483-494 `operator=` between different objects; `reset` is Streamable's. -/
def assign (self other : HScript) (h : Heap) : C (HScript × Heap) := do
  let (self, h) ← { self with status := .done, bytesParsed := 0 }.clear h
  self.take other h

/-- `sc.serialize(tmp, sc.length())` where `tmp` is a block of `sc.length()` bytes: its new contents. -/
def ser (sc : HScript) (h : Heap) : C (Nat × Bytes) := do
  let bs ← h.read sc.ptr 0 sc.scriptLen
  let v : Script := { scriptLen := sc.scriptLen, arr := bs }
  serialize v.toStream v.length 0 .raw

/-- Script.cpp:470-478 `push(const Script sc)`. The argument is a copy, destroyed at the end; `tmp` is not given back. -/
def pushScript (sc other : HScript) (h : Heap) : C (HScript × Nat × Heap) := do
  let (arg, h) ← other.copy h
  let (tmp, h) := h.calloc (arg.scriptLen + lenVarIntN arg.scriptLen)
  if tmp = 0 then
    let h ← arg.destroy h
    return (sc, 0, h)
  else
    let (_, bs) ← arg.ser h
    let h ← h.write tmp 0 bs
    let bs ← h.read tmp 0 (arg.scriptLen + lenVarIntN arg.scriptLen)
    let (sc, _, h) ← sc.pushData bs h
    let h ← arg.destroy h
    return (sc, sc.scriptLen, h)

end HScript

/-- Bitcoin.h:551-562 `class Witness`: the members of an object. -/
structure HWitness where
  status : Status := .done
  bytesParsed : Nat := 0
  lenLen : Nat := 0
  numElements : Nat := 0
  curElement : Nat := 0
  curElementLen : Nat := 0
  curBytesParsed : Nat := 0
  curLen : Nat := 0
  witnessLen : Nat := 0
  ptr : Nat := 0
deriving DecidableEq, Repr

namespace HWitness

/-- Script.cpp:507-513 `clear`: the block is given back, the pointer kept. -/
def clear (w : HWitness) (h : Heap) : C (HWitness × Heap) :=
  if w.witnessLen > 0 then do
    let h ← h.free w.ptr
    return ({ w with numElements := 0, witnessLen := 0 }, h)
  else return ({ w with numElements := 0 }, h)

/-- Bitcoin.h:572, the destructor. -/
def destroy (w : HWitness) (h : Heap) : C Heap := if w.ptr ≠ 0 then h.free w.ptr else return h

/-- Bitcoin.h:563 `reset`. -/
def reset (w : HWitness) : HWitness :=
  { w with status := .done, bytesParsed := 0, curElementLen := 0, curBytesParsed := 0, curElement := 0, lenLen := 0 }

/-- Script.cpp:539-548: the state in which a `from_stream` call starts reading. -/
def start (w : HWitness) (h : Heap) : C (HWitness × Heap) := do
  let (w, h) ← if w.status = .done then ({ w with curLen := 0 } : HWitness).reset.clear h else pure (w, h)
  return ({ w with status := .incomplete }, h)

/-- Script.cpp:574-589, length prefix of one element. -/
def elemLen (w : HWitness) (s : PStream) : C (HWitness × Nat × PStream) :=
  let (w, cr, s) :=
    if s.avail ∧ w.curBytesParsed = 0 then
      let (b, s) := s.readByte
      if b < 0xfd then ({ w with curElementLen := b.toNat, curLen := 1 }, 1, s)
      else ({ w with curElementLen := 0, curLen := 1 + 2 ^ (b.toNat - 0xfc) }, 1, s)
    else (w, 0, s)
  match lenLoop (w.curLen - (w.curBytesParsed + cr)) w.curElementLen (w.curBytesParsed + cr) s with
  | none => .ub
  | some (len, pos, s) => .ok ({ w with curElementLen := len }, pos - w.curBytesParsed, s)

/-- Script.cpp:597-610: room for the element, and its length prefix written at `offset`. The flag is false after the `return 0` of line
601 or 605. -/
def elemAlloc (w : HWitness) (cr offset : Nat) (h : Heap) : C (Bool × HWitness × Heap) :=
  if w.curBytesParsed + cr = w.curLen ∧ cr > 0 then do
    let l := lenVarIntN w.curElementLen
    let (_, vi) ← writeVarInt (UInt64.ofNat w.curElementLen) (zeros l)
    if w.witnessLen = 0 then
      let (p, h) := h.calloc (w.curElementLen + l)
      if p = 0 then return (false, { w with ptr := p, witnessLen := 0, status := .failed }, h)
      else
        let h ← h.write p 0 vi
        return (true, { w with ptr := p, witnessLen := w.curElementLen + l }, h)
    else
      let (p, h) ← h.realloc w.ptr (w.witnessLen + w.curElementLen + l)
      if p = 0 then
        let h ← h.free w.ptr
        return (false, { w with witnessLen := 0, status := .failed }, h)
      else
        let h ← h.write p offset vi
        return (true, { w with ptr := p, witnessLen := w.witnessLen + (w.curElementLen + l) }, h)
  else return (true, w, h)

/-- Outcome of one round of the element loop. -/
inductive Round where
  /-- the round ended normally: object, `cur_bytes_read`, stream -/
  | next (w : HWitness) (cr : Nat) (s : PStream) (h : Heap)
  /-- `return bytes_read` from within the loop with status FAILED -/
  | fail (w : HWitness) (cr : Nat) (s : PStream) (h : Heap)
  /-- `return 0`: no memory -/
  | noMem (w : HWitness) (s : PStream) (h : Heap)

/-- Script.cpp:571-624: one round of the element loop, `pos = bytes_parsed+bytes_read`. -/
def round (w : HWitness) (pos : Nat) (s : PStream) (h : Heap) : C Round := do
  let offset := pos - lenVarIntN w.numElements - w.curBytesParsed
  let (w, cr, s) ← w.elemLen s
  if lenVarIntN w.curElementLen ≠ w.curLen ∧ w.curBytesParsed + cr = w.curLen then
    return .fail { w with status := .failed, curBytesParsed := w.curBytesParsed + cr } cr s h
  else
    let (good, w, h) ← w.elemAlloc cr offset h
    if good then
      let total := w.curElementLen + lenVarIntN w.curElementLen
      let (bs, s) := s.readN (total - (w.curBytesParsed + cr))
      let h ← h.write w.ptr (offset + w.curBytesParsed + cr) bs
      let cr := cr + bs.length
      if w.curBytesParsed + cr = total then
        return .next { w with curLen := 0, curElementLen := 0, curElement := w.curElement + 1, curBytesParsed := 0 } cr s h
      else return .next { w with curBytesParsed := w.curBytesParsed + cr } cr s h
    else return .noMem w s h

/-- Script.cpp:570-630: the element loop and the end of `from_stream`. -/
def loop : Nat → HWitness → Nat → PStream → Heap → C (HWitness × Nat × PStream × Heap)
  | 0, w, br, s, h => return finish w br s h
  | fuel + 1, w, br, s, h =>
    if s.avail ∧ w.curElement < w.numElements then do
      match ← w.round (w.bytesParsed + br) s h with
      | .fail w cr s h => return ({ w with bytesParsed := w.bytesParsed + (br + cr) }, br + cr, s, h)
      | .noMem w s h => return (w, 0, s, h)
      | .next w cr s h => loop fuel w (br + cr) s h
    else return finish w br s h
where
  /-- Script.cpp:626-630. -/
  finish (w : HWitness) (br : Nat) (s : PStream) (h : Heap) : HWitness × Nat × PStream × Heap :=
    let st := if w.curElement = w.numElements then .done else w.status
    ({ w with status := st, bytesParsed := w.bytesParsed + br }, br, s, h)

/-- Script.cpp:535-631 `from_stream`: new object, return value, rest of the stream, heap. -/
def fromStream (w : HWitness) (s : PStream) (h : Heap) : C (HWitness × Nat × PStream × Heap) :=
  if w.status = .failed ∨ w.status = .ub then return (w, 0, s, h)
  else do
    let (w, h) ← w.start h
    if s.avail ∧ w.bytesParsed = 0 then
      let (b, s) := s.readByte
      if b < 0xfd then body { w with numElements := b.toNat, lenLen := 1 } 1 s h
      else return ({ w with lenLen := b.toNat, numElements := 0, status := .failed, bytesParsed := w.bytesParsed + 1 }, 1, s, h)
    else body w 0 s h
where
  /-- Script.cpp:564-631. -/
  body (w : HWitness) (br : Nat) (s : PStream) (h : Heap) : C (HWitness × Nat × PStream × Heap) :=
    if w.bytesParsed + br = w.lenLen ∧ lenVarIntN w.numElements ≠ w.lenLen then
      return ({ w with status := .failed, bytesParsed := w.bytesParsed + br }, br, s, h)
    else loop (w.numElements - w.curElement) w br s h

/-- Script.cpp:651-669 `push(data, len)`; the bytes of `data` lie outside the object's own block. -/
def push (w : HWitness) (data : Bytes) (h : Heap) : C (HWitness × Nat × Heap) :=
  let l := lenVarIntN data.length
  if w.witnessLen + data.length + l > Script.maxScriptSize then do
    let (w, h) ← w.clear h
    return (w, 0, h)
  else do
    let (_, vi) ← writeVarInt (UInt64.ofNat data.length) (zeros l)
    if w.witnessLen = 0 then
      let (p, h) := h.calloc (data.length + l)
      if p = 0 then return ({ w with ptr := p, witnessLen := 0 }, 0, h)
      else
        let h ← h.write p w.witnessLen vi
        let h ← h.write p (w.witnessLen + l) data
        return ({ w with ptr := p, witnessLen := w.witnessLen + (data.length + l), numElements := (w.numElements + 1) % 2 ^ 32 },
          w.witnessLen + (data.length + l), h)
    else
      let (p, h) ← h.realloc w.ptr (w.witnessLen + data.length + l)
      if p = 0 then
        let h ← h.free w.ptr
        return ({ w with witnessLen := 0 }, 0, h)
      else
        let h ← h.write p w.witnessLen vi
        let h ← h.write p (w.witnessLen + l) data
        return ({ w with ptr := p, witnessLen := w.witnessLen + (data.length + l), numElements := (w.numElements + 1) % 2 ^ 32 },
          w.witnessLen + (data.length + l), h)

/-- Script.cpp:683-693 `push(const Script sc)`; the argument is a copy, destroyed at the end. -/
def pushScript (w : HWitness) (other : HScript) (h : Heap) : C (HWitness × Nat × Heap) := do
  let (arg, h) ← other.copy h
  let (tmp, h) := h.calloc (arg.scriptLen + lenVarIntN arg.scriptLen)
  if tmp = 0 then
    let h ← arg.destroy h
    return (w, 0, h)
  else
    let (l, bs) ← arg.ser h
    let h ← h.write tmp 0 bs
    let bs ← h.read tmp 0 (arg.scriptLen + lenVarIntN arg.scriptLen)
    let dl ← readVarInt bs
    if l < dl.toNat then .ub
    else
      let data ← h.read tmp (l - dl.toNat) dl.toNat
      let (w, _, h) ← w.push data h
      let h ← h.free tmp
      let h ← arg.destroy h
      return (w, w.witnessLen, h)

/-- Script.cpp:697-702 and 707-713: the contents of `other` into a new block. -/
def take (w other : HWitness) (h : Heap) : C (HWitness × Heap) :=
  if other.witnessLen > 0 then do
    let (p, h) := h.calloc other.witnessLen
    if p = 0 then return ({ w with numElements := other.numElements, ptr := p, witnessLen := 0 }, h)
    else
      let bs ← h.read other.ptr 0 other.witnessLen
      let h ← h.write p 0 bs
      return ({ w with numElements := other.numElements, ptr := p, witnessLen := other.witnessLen }, h)
  else return ({ w with numElements := other.numElements }, h)

/-- Script.cpp:694-703 copy constructor. -/
def copy (other : HWitness) (h : Heap) : C (HWitness × Heap) := take {} other h

/-- Script.cpp:704-715 `operator=` between different objects. -/
def assign (self other : HWitness) (h : Heap) : C (HWitness × Heap) := do
  let (self, h) ← self.clear h
  self.take other h

end HWitness

end UB
