import Verif.Model.Script

/-
Model of TxIn, TxOut and Tx containers: Transaction.cpp:19-486, 601-626.
-/

namespace UB

/-- `uint32_t acc; acc += (c << (8*i))` for the bytes `c` of the list, `i` counting up (`i < 4`). -/
def accLE (acc : UInt32) (i : Nat) : Bytes → UInt32
  | [] => acc
  | b :: bs => accLE (acc + UInt32.ofNat (b.toNat * 256 ^ i)) (i + 1) bs

/-- Bitcoin.h `class TxIn`. -/
structure TxIn where
  status : Status := .done
  bytesParsed : Nat := 0
  hash : Bytes := zeros 32
  outputIndex : UInt32 := 0
  scriptSig : Script := {}
  sequence : UInt32 := 0
  witness : Witness := {}
deriving DecidableEq, Repr

namespace TxIn

/-- Transaction.cpp:76-82: the state in which a `from_stream` call starts reading. -/
def start (t : TxIn) : TxIn :=
  let t := if t.status = .done then
    { t with bytesParsed := 0, outputIndex := 0, sequence := 0, scriptSig := t.scriptSig.assign {} } else t
  { t with status := .incomplete }

/-- Transaction.cpp:84-92: previous hash and output index. -/
def readHead (t : TxIn) (s : PStream) : TxIn × Nat × PStream :=
  let (h, s) := s.readN (32 - t.bytesParsed)
  let hash := t.hash.take t.bytesParsed ++ h ++ t.hash.drop (t.bytesParsed + h.length)
  let pos := t.bytesParsed + h.length
  let (o, s) := s.readN (36 - pos)
  ({ t with hash := if h = [] then t.hash else hash, outputIndex := accLE t.outputIndex (pos - 32) o }, h.length + o.length, s)

/-- Transaction.cpp:93-98: the script, started when the position is 36, continued when incomplete. -/
def readScript (t : TxIn) (br : Nat) (s : PStream) : TxIn × Nat × PStream :=
  let (sc, n, s) := if s.avail ∧ br + t.bytesParsed = 36 then t.scriptSig.fromStream s else (t.scriptSig, 0, s)
  let (sc, m, s) := if s.avail ∧ sc.status = .incomplete then sc.fromStream s else (sc, 0, s)
  ({ t with scriptSig := sc }, br + n + m, s)

/-- Transaction.cpp:99-114: failure of the script, sequence, final status. -/
def readTail (t : TxIn) (br : Nat) (s : PStream) : TxIn × Nat × PStream :=
  if t.scriptSig.status = .failed then
    ({ t with status := .failed, bytesParsed := t.bytesParsed + br }, br, s)
  else if t.scriptSig.status = .ub then ({ t with status := .ub }, 0, s)
  else
    let pos := br + t.bytesParsed
    let hi := 36 + t.scriptSig.length + 4
    let (q, s) := s.readN (hi - pos)
    if q ≠ [] ∧ pos < 36 + t.scriptSig.length then ({ t with status := .ub }, 0, s)
    else
      let sequence := accLE t.sequence (pos - (36 + t.scriptSig.length)) q
      let br := br + q.length
      let st := if t.scriptSig.status = .done ∧ br + t.bytesParsed = hi then .done else t.status
      ({ t with sequence := sequence, status := st, bytesParsed := t.bytesParsed + br }, br, s)

/-- Transaction.cpp:72-115 `from_stream`. -/
def fromStream (t : TxIn) (s : PStream) : TxIn × Nat × PStream :=
  if t.status = .failed ∨ t.status = .ub then (t, 0, s)
  else
    let (t, br, s) := t.start.readHead s
    let (t, br, s) := t.readScript br s
    t.readTail br s

/-- Transaction.cpp:139-141 `length`. -/
def length (t : TxIn) : Nat := 32 + 4 + t.scriptSig.length + 4

/-- Transaction.cpp:116-138 `to_stream`. -/
def toStream (t : TxIn) (cap : Option Nat) (offset : Nat) : C Bytes := do
  let s : Ser := ⟨cap, []⟩
  let s ← s.emit t.hash 0 32 offset
  let arr ← intToLittleEndian t.outputIndex.toUInt64 4
  let s ← s.emit arr 32 (32 + 4) offset
  let len := t.scriptSig.length
  let s ← s.emitObj t.scriptSig.toStream (32 + 4) (32 + 4 + len) offset
  let arr ← intToLittleEndian t.sequence.toUInt64 4
  let s ← s.emit arr (32 + 4 + len) (32 + 4 + len + 4) offset
  return s.out

/-- Bitcoin.h:611 `isSegwit`: `count()` is the low byte of the number of elements (Bitcoin.h:575). -/
def isSegwit (t : TxIn) : Bool := t.witness.numElements % 256 > 0

/-- The implicitly defined copy assignment: member by member. -/
def assign (self other : TxIn) : TxIn :=
  { status := other.status, bytesParsed := other.bytesParsed, hash := other.hash,
    outputIndex := other.outputIndex, scriptSig := self.scriptSig.assign other.scriptSig,
    sequence := other.sequence, witness := self.witness.assign other.witness }

/-- The implicitly defined copy constructor (pass by value). -/
def copy (other : TxIn) : TxIn :=
  { other with scriptSig := other.scriptSig.copy, witness := other.witness.copy }

/-- Transaction.cpp:29-36 `TxIn(prev_id, prev_index, sequence)`. -/
def mk' (prevId : Bytes) (idx seq : UInt32) : TxIn :=
  { outputIndex := idx, sequence := seq, hash := prevId.reverse }

end TxIn

/-- Bitcoin.h `class TxOut`. -/
structure TxOut where
  status : Status := .done
  bytesParsed : Nat := 0
  tmp : Bytes := zeros 8
  amount : UInt64 := 0
  scriptPubkey : Script := {}
deriving DecidableEq, Repr

namespace TxOut

/-- Transaction.cpp:149-155. -/
def start (t : TxOut) : TxOut :=
  let t := if t.status = .done then
    { t with bytesParsed := 0, tmp := zeros 8, amount := 0,
             scriptPubkey := { t.scriptPubkey.clear with status := .done, bytesParsed := 0 } } else t
  { t with status := .incomplete }

/-- Transaction.cpp:157-162: the amount. -/
def readHead (t : TxOut) (s : PStream) : TxOut × Nat × PStream :=
  let (h, s) := s.readN (8 - t.bytesParsed)
  let tmp := if h = [] then t.tmp else t.tmp.take t.bytesParsed ++ h ++ t.tmp.drop (t.bytesParsed + h.length)
  ({ t with tmp := tmp, amount := if h = [] then t.amount else littleEndianToInt tmp }, h.length, s)

/-- Transaction.cpp:163-168. -/
def readScript (t : TxOut) (br : Nat) (s : PStream) : TxOut × Nat × PStream :=
  let (sc, n, s) := if s.avail ∧ br + t.bytesParsed = 8 then t.scriptPubkey.fromStream s else (t.scriptPubkey, 0, s)
  let (sc, m, s) := if s.avail ∧ sc.status = .incomplete then sc.fromStream s else (sc, 0, s)
  ({ t with scriptPubkey := sc }, br + n + m, s)

/-- Bitcoin.h `TxOut::length`. -/
def length (t : TxOut) : Nat := 8 + t.scriptPubkey.length

/-- Transaction.cpp:169-179. -/
def readTail (t : TxOut) (br : Nat) (s : PStream) : TxOut × Nat × PStream :=
  if t.scriptPubkey.status = .failed then
    ({ t with status := .failed, bytesParsed := t.bytesParsed + br }, br, s)
  else if t.scriptPubkey.status = .ub then ({ t with status := .ub }, 0, s)
  else
    let st := if t.scriptPubkey.status = .done ∧ br + t.bytesParsed = 8 + t.scriptPubkey.length then .done else t.status
    ({ t with status := st, bytesParsed := t.bytesParsed + br }, br, s)

/-- Transaction.cpp:145-180 `from_stream`. -/
def fromStream (t : TxOut) (s : PStream) : TxOut × Nat × PStream :=
  if t.status = .failed ∨ t.status = .ub then (t, 0, s)
  else
    let (t, br, s) := t.start.readHead s
    let (t, br, s) := t.readScript br s
    t.readTail br s

/-- Transaction.cpp:182-195 `to_stream`. -/
def toStream (t : TxOut) (cap : Option Nat) (offset : Nat) : C Bytes := do
  let s : Ser := ⟨cap, []⟩
  let arr ← intToLittleEndian t.amount 8
  let s ← s.emit arr 0 8 offset
  let len := t.scriptPubkey.length
  let s ← s.emitObj t.scriptPubkey.toStream 8 (8 + len) offset
  return s.out

/-- The implicitly defined copy assignment. -/
def assign (self other : TxOut) : TxOut :=
  { other with scriptPubkey := self.scriptPubkey.assign other.scriptPubkey }

/-- The implicitly defined copy constructor. -/
def copy (other : TxOut) : TxOut := { other with scriptPubkey := other.scriptPubkey.copy }

end TxOut

/-- Bitcoin.h `class Tx`; `inputsNumber`, `outputsNumber` are the lengths of the lists. -/
structure Tx where
  status : Status := .done
  bytesParsed : Nat := 0
  segwitFlag : Nat := 1
  version : UInt32 := 1
  txIns : List TxIn := []
  txOuts : List TxOut := []
  locktime : UInt32 := 0
deriving DecidableEq, Repr

namespace Tx

/-- Transaction.cpp:284-291 `isSegwit`. -/
def isSegwit (t : Tx) : Bool := t.txIns.any (·.isSegwit)

/-- Transaction.cpp:270-283 `length`. -/
def length (t : Tx) : Nat :=
  4 + 4 + lenVarIntN t.txIns.length + lenVarIntN t.txOuts.length + (if t.isSegwit then 2 else 0)
    + (t.txIns.map fun i => i.length + (if t.isSegwit then i.witness.length else 0)).sum
    + (t.txOuts.map (·.length)).sum

/-- Transaction.cpp:316-322, 329-335, 337-343: the loops writing a list of sub-objects; each item is given by
its `to_stream` and its `length()`. Returns the stream and the final `cur_offset`. -/
def emitList (s : Ser) : List ((Option Nat → Nat → C Bytes) × Nat) → Nat → Nat → C (Ser × Nat)
  | [], cur, _ => .ok (s, cur)
  | (f, l) :: rest, cur, offset => do
    let s ← s.emitObj f cur (cur + l) offset
    emitList s rest (cur + l) offset

/-- Transaction.cpp:292-351 `to_stream`. The two counts are written with `if`, so at most one byte of
each is written in a call although `cur_offset` advances by the full length of the varint. -/
def toStream (t : Tx) (cap : Option Nat) (offset : Nat) : C Bytes := do
  let s : Ser := ⟨cap, []⟩
  let arr ← intToLittleEndian t.version.toUInt64 4
  let s ← s.emit arr 0 4 offset
  let sw := t.isSegwit
  let s := if sw ∧ s.avail ∧ s.out.length + offset = 4 then s.push [0x00] else s
  let s := if sw ∧ s.avail ∧ s.out.length + offset = 5 then s.push [0x01] else s
  let cur := 4 + (if sw then 2 else 0)
  let (l, arr) ← writeVarInt (UInt64.ofNat t.txIns.length) (arr ++ zeros 6)
  let s ← s.emitOne arr cur (cur + l) offset
  let (s, cur) ← emitList s (t.txIns.map fun i => (i.toStream, i.length)) (cur + l) offset
  let (l, arr) ← writeVarInt (UInt64.ofNat t.txOuts.length) arr
  let s ← s.emitOne arr cur (cur + l) offset
  let (s, cur) ← emitList s (t.txOuts.map fun o => (o.toStream, o.length)) (cur + l) offset
  let (s, cur) ← if sw then emitList s (t.txIns.map fun i => (i.witness.toStream, i.witness.length)) cur offset
    else .ok (s, cur)
  let arr ← intToLittleEndian t.locktime.toUInt64 4
  let s ← s.emit arr cur (cur + 4) offset
  return s.out

/-! #### Parsing -/

/-- Transaction.cpp:378-380, 396-398, 418-420, 437-439: `for(...) bytes_read += s->parse(&x[i]);` -/
def parseAll {α : Type} (f : α → PStream → α × Nat × PStream) : List α → PStream → List α × Nat × PStream
  | [], s => ([], 0, s)
  | x :: xs, s =>
    let (x, n, s) := f x s
    let (xs, m, s) := parseAll f xs s
    (x :: xs, n + m, s)

/-- Transaction.cpp:400-409, 422-431, 442-452: continue the incomplete sub-objects; `false` means that
the loop stopped at a failed one (or one that hit undefined behaviour). -/
def contLoop {α : Type} (f : α → PStream → α × Nat × PStream) (st : α → Status) :
    List α → PStream → List α × Nat × PStream × Bool
  | [], s => ([], 0, s, true)
  | x :: xs, s =>
    let (x, n, s) := if s.avail ∧ st x = .incomplete then f x s else (x, 0, s)
    if st x = .failed ∨ st x = .ub then (x :: xs, n, s, false)
    else
      let (xs, m, s, r) := contLoop f st xs s
      (x :: xs, n + m, s, r)

/-- `contLoop` with the status to report: `none` to go on, `some ub` if any sub-object has executed
undefined behaviour, `some failed` otherwise. -/
def contAll {α : Type} (f : α → PStream → α × Nat × PStream) (st : α → Status) (xs : List α) (s : PStream) :
    List α × Nat × PStream × Option Status :=
  let (xs, n, s, good) := contLoop f st xs s
  (xs, n, s, if xs.any (fun x => st x = .ub) then some .ub else if good then none else some .failed)

/-- Parse the witness of an input. -/
def parseWitness (i : TxIn) (s : PStream) : TxIn × Nat × PStream :=
  let (w, n, s) := i.witness.fromStream s
  ({ i with witness := w }, n, s)

/-- Transaction.cpp:356-363. -/
def start (t : Tx) : Tx :=
  let t := if t.status = .done then
    { t with txIns := [], txOuts := [], bytesParsed := 0, version := 0, locktime := 0, segwitFlag := 0 } else t
  { t with status := .incomplete }

/-- `status = st; bytes_parsed += bytes_read; return bytes_read;` -/
def finish (t : Tx) (st : Status) (br : Nat) (s : PStream) : Tx × Nat × PStream :=
  ({ t with status := st, bytesParsed := t.bytesParsed + br }, br, s)

/-- Transaction.cpp:365-382: version, then the input count or the segwit marker. -/
def readVersion (t : Tx) (s : PStream) : Tx × Nat × PStream :=
  let (v, s) := s.readN (4 - t.bytesParsed)
  let t := { t with version := accLE t.version t.bytesParsed v }
  let br := v.length
  if s.avail ∧ br + t.bytesParsed = 4 then
    let (c, s) := s.readByte
    let br := br + 1
    if c = 0 then ({ t with segwitFlag := 1 }, br, s)
    else
      let (ins, n, s) := parseAll TxIn.fromStream (List.replicate c.toNat {}) s
      ({ t with txIns := ins }, br + n, s)
  else (t, br, s)

/-- Transaction.cpp:383-391: segwit flag; `false` means an unsupported flag. -/
def readFlag (t : Tx) (br : Nat) (s : PStream) : Bool × Nat × PStream :=
  if s.avail ∧ t.segwitFlag > 0 ∧ br + t.bytesParsed = 5 then
    let (c, s) := s.readByte
    (c = 1, br + 1, s)
  else (true, br, s)

/-- Transaction.cpp:392-399: input count of a segwit transaction. -/
def readSegwitCount (t : Tx) (br : Nat) (s : PStream) : Tx × Nat × PStream :=
  if s.avail ∧ t.segwitFlag > 0 ∧ br + t.bytesParsed = 6 then
    let (c, s) := s.readByte
    let (ins, n, s) := parseAll TxIn.fromStream (List.replicate c.toNat {}) s
    ({ t with txIns := ins }, br + 1 + n, s)
  else (t, br, s)

/-- Transaction.cpp:410-413: offset of the output count. -/
def outOffset (t : Tx) : Nat := 5 + 2 * t.segwitFlag + (t.txIns.map (·.length)).sum

/-- Transaction.cpp:432-435: offset of the witnesses. -/
def witOffset (t : Tx) : Nat := t.outOffset + 1 + (t.txOuts.map (·.length)).sum

/-- Transaction.cpp:453-455: offset of the locktime. -/
def lockOffset (t : Tx) : Nat :=
  t.witOffset + (if t.segwitFlag > 0 then (t.txIns.map (·.witness.length)).sum else 0)

/-- Transaction.cpp:414-421: output count. -/
def readOutCount (t : Tx) (br : Nat) (s : PStream) : Tx × Nat × PStream :=
  if s.avail ∧ br + t.bytesParsed = t.outOffset then
    let (c, s) := s.readByte
    let (outs, n, s) := parseAll TxOut.fromStream (List.replicate c.toNat {}) s
    ({ t with txOuts := outs }, br + 1 + n, s)
  else (t, br, s)

/-- Transaction.cpp:463-479: all parts have been parsed. -/
def completed (t : Tx) : Bool :=
  t.txIns.all (fun i => i.status = .done ∧ (t.segwitFlag > 0 → i.witness.status = .done)) &&
  t.txOuts.all (fun o => o.status = .done)

/-- Transaction.cpp:457-485: locktime and final status. -/
def readLock (t : Tx) (br : Nat) (s : PStream) : Tx × Nat × PStream :=
  let pos := br + t.bytesParsed
  let (q, s) := s.readN (t.lockOffset + 4 - pos)
  if q ≠ [] ∧ pos < t.lockOffset then ({ t with status := .ub }, 0, s)
  else
    let t := { t with locktime := accLE t.locktime (pos - t.lockOffset) q }
    let br := br + q.length
    t.finish (if br + t.bytesParsed = t.lockOffset + 4 ∧ t.completed then .done else t.status) br s

/-- Transaction.cpp:436-456: witnesses; the first pass runs without checking `available()`. -/
def readWitnesses (t : Tx) (br : Nat) (s : PStream) : Tx × Nat × PStream :=
  if t.segwitFlag > 0 then
    let (ins, n, s) := if br + t.bytesParsed = t.witOffset then parseAll parseWitness t.txIns s
      else (t.txIns, 0, s)
    let (ins, m, s, r) := contAll parseWitness (·.witness.status) ins s
    let t := { t with txIns := ins }
    match r with
    | some st => t.finish st (br + n + m) s
    | none => t.readLock (br + n + m) s
  else t.readLock br s

/-- Transaction.cpp:410-485. -/
def readOuts (t : Tx) (br : Nat) (s : PStream) : Tx × Nat × PStream :=
  let (t, br, s) := t.readOutCount br s
  let (outs, m, s, r) := contAll TxOut.fromStream (·.status) t.txOuts s
  let t := { t with txOuts := outs }
  match r with
  | some st => t.finish st (br + m) s
  | none => t.readWitnesses (br + m) s

/-- Transaction.cpp:400-485. -/
def readIns (t : Tx) (br : Nat) (s : PStream) : Tx × Nat × PStream :=
  let (ins, m, s, r) := contAll TxIn.fromStream (·.status) t.txIns s
  let t := { t with txIns := ins }
  match r with
  | some st => t.finish st (br + m) s
  | none => t.readOuts (br + m) s

/-- Transaction.cpp:352-486 `from_stream`. -/
def fromStream (t : Tx) (s : PStream) : Tx × Nat × PStream :=
  if t.status = .failed ∨ t.status = .ub then (t, 0, s)
  else
    let (t, br, s) := t.start.readVersion s
    let (good, br, s) := t.readFlag br s
    if good then
      let (t, br, s) := t.readSegwitCount br s
      t.readIns br s
    else t.finish .failed br s

/-- Transaction.cpp:601-613 `addInput`: the array is rebuilt by assigning into fresh objects; returns
`uint8_t`. -/
def addInput (t : Tx) (i : TxIn) : Tx × UInt8 :=
  let ins := (t.txIns ++ [i.copy]).map (({} : TxIn).assign ·)
  ({ t with txIns := ins }, UInt8.ofNat ins.length)

/-- Transaction.cpp:614-626 `addOutput`. -/
def addOutput (t : Tx) (o : TxOut) : Tx × UInt8 :=
  let outs := (t.txOuts ++ [o.copy]).map (({} : TxOut).assign ·)
  ({ t with txOuts := outs }, UInt8.ofNat outs.length)

/-- Transaction.cpp:212-229 copy constructor. -/
def copy (t : Tx) : Tx :=
  { t with txIns := t.txIns.map (({} : TxIn).assign ·), txOuts := t.txOuts.map (({} : TxOut).assign ·) }

end Tx

end UB
