import Verif.Model.Heap
import Verif.Model.Transaction

/-
The dynamically allocated memory behind `TxIn`, `TxOut` and `Tx`: Transaction.cpp:19-115, 145-180, 199-269, 352-486, 601-626,
Bitcoin.h:595-660. The scripts and witnesses of inputs and outputs are objects of Model/Heap; the arrays `txIns` and `txOuts` are blocks
of the same heap.

Simplifications: the elements of an array are kept beside its address in the `Tx` object, and the block only says whether the array is
allocated (an element is used only after looking whether it is); `new` always succeeds (it would throw, and the library does not
catch); `new X[0]` returns a block as in C++.
-/

namespace UB

namespace Heap

/-- `new T[n]`, before the constructors of the elements. -/
def new (h : Heap) : Nat × Heap := (h.next + 1, { h.set (h.next + 1) (some []) with next := h.next + 1 })

/-- Using elements of an array of `n` elements at `p`. -/
def access (h : Heap) (p n : Nat) : C Unit := if n > 0 ∧ h.blocks p = none then .ub else .ok ()

end Heap

/-- `for(i...) b[i] = f(a[i])`. -/
def eachH {α β : Type} (f : α → Heap → C (β × Heap)) : List α → Heap → C (List β × Heap)
  | [], h => .ok ([], h)
  | x :: xs, h => do
    let (y, h) ← f x h
    let (ys, h) ← eachH f xs h
    return (y :: ys, h)

/-- The destructors of the elements of an array, from the last to the first. -/
def destroyEach {α : Type} (d : α → Heap → C Heap) : List α → Heap → C Heap
  | [], h => .ok h
  | x :: xs, h => do
    let h ← destroyEach d xs h
    d x h

/-- `delete [] p`. -/
def deleteArray {α : Type} (d : α → Heap → C Heap) (p : Nat) (xs : List α) (h : Heap) : C Heap := do
  h.access p xs.length
  let h ← destroyEach d xs h
  h.free p

/-- `if(n > 0) delete [] x;` -/
def deleteSome {α : Type} (d : α → Heap → C Heap) (p : Nat) (xs : List α) (h : Heap) : C Heap :=
  if xs.length > 0 then deleteArray d p xs h else pure h

/-- Script.cpp `length`. -/
def HScript.length (sc : HScript) : Nat := sc.scriptLen + lenVarIntN sc.scriptLen

/-- Bitcoin.h:595-618 `class TxIn`: the members of an object. -/
structure HTxIn where
  status : Status := .done
  bytesParsed : Nat := 0
  hash : Bytes := zeros 32
  outputIndex : UInt32 := 0
  scriptSig : HScript := {}
  sequence : UInt32 := 0
  witness : HWitness := {}
deriving DecidableEq, Repr

namespace HTxIn

/-- The implicitly defined destructor: the members in reverse order. -/
def destroy (t : HTxIn) (h : Heap) : C Heap := do
  let h ← t.witness.destroy h
  t.scriptSig.destroy h

/-- The implicitly defined copy constructor. -/
def copy (other : HTxIn) (h : Heap) : C (HTxIn × Heap) := do
  let (sc, h) ← other.scriptSig.copy h
  let (w, h) ← other.witness.copy h
  return ({ other with scriptSig := sc, witness := w }, h)

/-- The implicitly defined copy assignment between different objects. -/
def assign (self other : HTxIn) (h : Heap) : C (HTxIn × Heap) := do
  let (sc, h) ← self.scriptSig.assign other.scriptSig h
  let (w, h) ← self.witness.assign other.witness h
  return ({ other with scriptSig := sc, witness := w }, h)

/-- Transaction.cpp:37-44 `TxIn t(prev_id, prev_index, Script(data, len), sequence)`: the argument is a temporary object. -/
def make (prevId : Bytes) (idx : UInt32) (data : Bytes) (seq : UInt32) (h : Heap) : C (HTxIn × Heap) := do
  let (arg, h) ← HScript.ofBuffer data h
  let (sc, h) ← ({} : HScript).assign arg h
  let h ← arg.destroy h
  return ({ outputIndex := idx, sequence := seq, hash := prevId.reverse, scriptSig := sc }, h)

/-- Transaction.cpp:76-82: the state in which a `from_stream` call starts reading. -/
def start (t : HTxIn) (h : Heap) : C (HTxIn × Heap) :=
  if t.status = .done then do
    let (sc, h) ← t.scriptSig.assign {} h
    return ({ t with bytesParsed := 0, outputIndex := 0, sequence := 0, scriptSig := sc, status := .incomplete }, h)
  else return ({ t with status := .incomplete }, h)

/-- Transaction.cpp:84-92: previous hash and output index. -/
def readHead (t : HTxIn) (s : PStream) : HTxIn × Nat × PStream :=
  let (b, s) := s.readN (32 - t.bytesParsed)
  let hash := t.hash.take t.bytesParsed ++ b ++ t.hash.drop (t.bytesParsed + b.length)
  let pos := t.bytesParsed + b.length
  let (o, s) := s.readN (36 - pos)
  ({ t with hash := if b = [] then t.hash else hash, outputIndex := accLE t.outputIndex (pos - 32) o }, b.length + o.length, s)

/-- Transaction.cpp:93-98: the script. -/
def readScript (t : HTxIn) (br : Nat) (s : PStream) (h : Heap) : C (HTxIn × Nat × PStream × Heap) := do
  let (sc, n, s, h) ← if s.avail ∧ br + t.bytesParsed = 36 then t.scriptSig.fromStream s h else pure (t.scriptSig, 0, s, h)
  let (sc, m, s, h) ← if s.avail ∧ sc.status = .incomplete then sc.fromStream s h else pure (sc, 0, s, h)
  return ({ t with scriptSig := sc }, br + n + m, s, h)

/-- Transaction.cpp:99-114: failure of the script, sequence, final status. -/
def readTail (t : HTxIn) (br : Nat) (s : PStream) : C (HTxIn × Nat × PStream) :=
  if t.scriptSig.status = .failed then
    .ok ({ t with status := .failed, bytesParsed := t.bytesParsed + br }, br, s)
  else
    let pos := br + t.bytesParsed
    let hi := 36 + t.scriptSig.length + 4
    let (q, s) := s.readN (hi - pos)
    if q ≠ [] ∧ pos < 36 + t.scriptSig.length then .ub
    else
      let sequence := accLE t.sequence (pos - (36 + t.scriptSig.length)) q
      let br := br + q.length
      let st := if t.scriptSig.status = .done ∧ br + t.bytesParsed = hi then .done else t.status
      .ok ({ t with sequence := sequence, status := st, bytesParsed := t.bytesParsed + br }, br, s)

/-- Transaction.cpp:72-115 `from_stream`. -/
def fromStream (t : HTxIn) (s : PStream) (h : Heap) : C (HTxIn × Nat × PStream × Heap) :=
  if t.status = .failed ∨ t.status = .ub then return (t, 0, s, h)
  else do
    let (t, h) ← t.start h
    let (t, br, s) := t.readHead s
    let (t, br, s, h) ← t.readScript br s h
    let (t, br, s) ← t.readTail br s
    return (t, br, s, h)

/-- Transaction.cpp:139-141 `length`. -/
def length (t : HTxIn) : Nat := 32 + 4 + t.scriptSig.length + 4

/-- The witness of an input parsed, as in Transaction.cpp:438, 444. -/
def parseWitness (t : HTxIn) (s : PStream) (h : Heap) : C (HTxIn × Nat × PStream × Heap) := do
  let (w, n, s, h) ← t.witness.fromStream s h
  return ({ t with witness := w }, n, s, h)

end HTxIn

/-- Bitcoin.h:624-645 `class TxOut`: the members of an object. -/
structure HTxOut where
  status : Status := .done
  bytesParsed : Nat := 0
  tmp : Bytes := zeros 8
  amount : UInt64 := 0
  scriptPubkey : HScript := {}
deriving DecidableEq, Repr

namespace HTxOut

/-- The implicitly defined destructor. -/
def destroy (t : HTxOut) (h : Heap) : C Heap := t.scriptPubkey.destroy h

/-- The implicitly defined copy constructor. -/
def copy (other : HTxOut) (h : Heap) : C (HTxOut × Heap) := do
  let (sc, h) ← other.scriptPubkey.copy h
  return ({ other with scriptPubkey := sc }, h)

/-- The implicitly defined copy assignment between different objects. -/
def assign (self other : HTxOut) (h : Heap) : C (HTxOut × Heap) := do
  let (sc, h) ← self.scriptPubkey.assign other.scriptPubkey h
  return ({ other with scriptPubkey := sc }, h)

/-- Bitcoin.h:633 `TxOut t(amount, Script(data, len))`: the argument is a temporary object. -/
def make (amount : UInt64) (data : Bytes) (h : Heap) : C (HTxOut × Heap) := do
  let (arg, h) ← HScript.ofBuffer data h
  let (sc, h) ← ({} : HScript).assign arg h
  let h ← arg.destroy h
  return ({ amount := amount, scriptPubkey := sc }, h)

/-- Transaction.cpp:149-155. -/
def start (t : HTxOut) (h : Heap) : C (HTxOut × Heap) :=
  if t.status = .done then do
    let (sc, h) ← t.scriptPubkey.clear h
    return ({ t with bytesParsed := 0, tmp := zeros 8, amount := 0, scriptPubkey := { sc with status := .done, bytesParsed := 0 },
                     status := .incomplete }, h)
  else return ({ t with status := .incomplete }, h)

/-- Transaction.cpp:157-162: the amount. -/
def readHead (t : HTxOut) (s : PStream) : HTxOut × Nat × PStream :=
  let (b, s) := s.readN (8 - t.bytesParsed)
  let tmp := if b = [] then t.tmp else t.tmp.take t.bytesParsed ++ b ++ t.tmp.drop (t.bytesParsed + b.length)
  ({ t with tmp := tmp, amount := if b = [] then t.amount else littleEndianToInt tmp }, b.length, s)

/-- Transaction.cpp:163-168. -/
def readScript (t : HTxOut) (br : Nat) (s : PStream) (h : Heap) : C (HTxOut × Nat × PStream × Heap) := do
  let (sc, n, s, h) ← if s.avail ∧ br + t.bytesParsed = 8 then t.scriptPubkey.fromStream s h else pure (t.scriptPubkey, 0, s, h)
  let (sc, m, s, h) ← if s.avail ∧ sc.status = .incomplete then sc.fromStream s h else pure (sc, 0, s, h)
  return ({ t with scriptPubkey := sc }, br + n + m, s, h)

/-- Transaction.cpp:169-179. -/
def readTail (t : HTxOut) (br : Nat) (s : PStream) : HTxOut × Nat × PStream :=
  if t.scriptPubkey.status = .failed then
    ({ t with status := .failed, bytesParsed := t.bytesParsed + br }, br, s)
  else
    let st := if t.scriptPubkey.status = .done ∧ br + t.bytesParsed = 8 + t.scriptPubkey.length then .done else t.status
    ({ t with status := st, bytesParsed := t.bytesParsed + br }, br, s)

/-- Transaction.cpp:145-180 `from_stream`. -/
def fromStream (t : HTxOut) (s : PStream) (h : Heap) : C (HTxOut × Nat × PStream × Heap) :=
  if t.status = .failed ∨ t.status = .ub then return (t, 0, s, h)
  else do
    let (t, h) ← t.start h
    let (t, br, s) := t.readHead s
    let (t, br, s, h) ← t.readScript br s h
    let (t, br, s) := t.readTail br s
    return (t, br, s, h)

/-- Bitcoin.h:637 `length`. -/
def length (t : HTxOut) : Nat := 8 + t.scriptPubkey.length

end HTxOut

/-- Bitcoin.h:662-682 `class Tx`: the members of an object, with the elements of the two arrays. -/
structure HTx where
  status : Status := .done
  bytesParsed : Nat := 0
  segwitFlag : Nat := 1
  version : UInt32 := 1
  inPtr : Nat := 0
  txIns : List HTxIn := []
  outPtr : Nat := 0
  txOuts : List HTxOut := []
  locktime : UInt32 := 0
deriving DecidableEq, Repr

namespace HTx

/-- Transaction.cpp:258-269 `clear`: arrays without elements are not given back. -/
def clear (t : HTx) (h : Heap) : C (HTx × Heap) := do
  let (t, h) ← if t.txIns.length > 0 then do
      let h ← deleteArray HTxIn.destroy t.inPtr t.txIns h
      pure ({ t with inPtr := 0, txIns := [] }, h)
    else pure (t, h)
  if t.txOuts.length > 0 then do
    let h ← deleteArray HTxOut.destroy t.outPtr t.txOuts h
    return ({ t with outPtr := 0, txOuts := [] }, h)
  else return (t, h)

/-- Transaction.cpp:255-257, the destructor. -/
def destroy (t : HTx) (h : Heap) : C Heap := do
  let (_, h) ← t.clear h
  return h

/-- Transaction.cpp:217-224, 241-248: arrays of their own with the contents of those of `other`. -/
def take (self other : HTx) (h : Heap) : C (HTx × Heap) := do
  let (p, h) := h.new
  let (q, h) := h.new
  h.access other.inPtr other.txIns.length
  let (ins, h) ← eachH (({} : HTxIn).assign ·) other.txIns h
  h.access other.outPtr other.txOuts.length
  let (outs, h) ← eachH (({} : HTxOut).assign ·) other.txOuts h
  return ({ self with version := other.version, inPtr := p, txIns := ins, outPtr := q, txOuts := outs, locktime := other.locktime,
                      segwitFlag := other.segwitFlag, status := other.status, bytesParsed := other.bytesParsed }, h)

/-- Transaction.cpp:212-229 copy constructor. -/
def copy (other : HTx) (h : Heap) : C (HTx × Heap) := take {} other h

/-- Transaction.cpp:230-254 `operator=` between different objects. -/
def assign (self other : HTx) (h : Heap) : C (HTx × Heap) := do
  let h ← deleteSome HTxIn.destroy self.inPtr self.txIns h
  let h ← deleteSome HTxOut.destroy self.outPtr self.txOuts h
  self.take other h

/-- Transaction.cpp:601-613 `addInput`: the argument is a copy, destroyed at the end. -/
def addInput (t : HTx) (i : HTxIn) (h : Heap) : C (HTx × UInt8 × Heap) := do
  let (arg, h) ← i.copy h
  let (p, h) := h.new
  h.access t.inPtr t.txIns.length
  let (ins, h) ← eachH (({} : HTxIn).assign ·) t.txIns h
  let (last, h) ← ({} : HTxIn).assign arg h
  let h ← deleteSome HTxIn.destroy t.inPtr t.txIns h
  let h ← arg.destroy h
  return ({ t with inPtr := p, txIns := ins ++ [last] }, UInt8.ofNat (ins ++ [last]).length, h)

/-- Transaction.cpp:614-626 `addOutput`: the argument is a copy, destroyed at the end. -/
def addOutput (t : HTx) (o : HTxOut) (h : Heap) : C (HTx × UInt8 × Heap) := do
  let (arg, h) ← o.copy h
  let (p, h) := h.new
  h.access t.outPtr t.txOuts.length
  let (outs, h) ← eachH (({} : HTxOut).assign ·) t.txOuts h
  let (last, h) ← ({} : HTxOut).assign arg h
  let h ← deleteSome HTxOut.destroy t.outPtr t.txOuts h
  let h ← arg.destroy h
  return ({ t with outPtr := p, txOuts := outs ++ [last] }, UInt8.ofNat (outs ++ [last]).length, h)

/-! #### Parsing -/

/-- Transaction.cpp:378-380, 396-398, 418-420, 437-439: `for(...) bytes_read += s->parse(&x[i]);` -/
def parseAll {α : Type} (f : α → PStream → Heap → C (α × Nat × PStream × Heap)) :
    List α → PStream → Heap → C (List α × Nat × PStream × Heap)
  | [], s, h => .ok ([], 0, s, h)
  | x :: xs, s, h => do
    let (x, n, s, h) ← f x s h
    let (xs, m, s, h) ← parseAll f xs s h
    return (x :: xs, n + m, s, h)

/-- Transaction.cpp:400-409, 422-431, 442-452: continue the incomplete sub-objects; `false` means that the loop stopped at a failed one. -/
def contLoop {α : Type} (f : α → PStream → Heap → C (α × Nat × PStream × Heap)) (st : α → Status) :
    List α → PStream → Heap → C (List α × Nat × PStream × Bool × Heap)
  | [], s, h => .ok ([], 0, s, true, h)
  | x :: xs, s, h => do
    let (x, n, s, h) ← if s.avail ∧ st x = .incomplete then f x s h else pure (x, 0, s, h)
    if st x = .failed then return (x :: xs, n, s, false, h)
    else
      let (xs, m, s, r, h) ← contLoop f st xs s h
      return (x :: xs, n + m, s, r, h)

/-- Transaction.cpp:356-363. -/
def start (t : HTx) (h : Heap) : C (HTx × Heap) :=
  if t.status = .done then do
    let (t, h) ← t.clear h
    return ({ t with bytesParsed := 0, version := 0, locktime := 0, segwitFlag := 0, status := .incomplete }, h)
  else return ({ t with status := .incomplete }, h)

/-- `status = st; bytes_parsed += bytes_read; return bytes_read;` -/
def finish (t : HTx) (st : Status) (br : Nat) (s : PStream) (h : Heap) : HTx × Nat × PStream × Heap :=
  ({ t with status := st, bytesParsed := t.bytesParsed + br }, br, s, h)

/-- Transaction.cpp:376-380, 393-398: the array of inputs, which replaces the one before. -/
def newIns (t : HTx) (n : Nat) (s : PStream) (h : Heap) : C (HTx × Nat × PStream × Heap) := do
  let (p, h) := h.new
  let (ins, m, s, h) ← parseAll HTxIn.fromStream (List.replicate n {}) s h
  return ({ t with inPtr := p, txIns := ins }, m, s, h)

/-- Transaction.cpp:415-420: the array of outputs. -/
def newOuts (t : HTx) (n : Nat) (s : PStream) (h : Heap) : C (HTx × Nat × PStream × Heap) := do
  let (p, h) := h.new
  let (outs, m, s, h) ← parseAll HTxOut.fromStream (List.replicate n {}) s h
  return ({ t with outPtr := p, txOuts := outs }, m, s, h)

/-- Transaction.cpp:365-382: version, then the input count or the segwit marker. -/
def readVersion (t : HTx) (s : PStream) (h : Heap) : C (HTx × Nat × PStream × Heap) :=
  let (v, s) := s.readN (4 - t.bytesParsed)
  let t := { t with version := accLE t.version t.bytesParsed v }
  let br := v.length
  if s.avail ∧ br + t.bytesParsed = 4 then
    let (c, s) := s.readByte
    let br := br + 1
    if c = 0 then return ({ t with segwitFlag := 1 }, br, s, h)
    else do
      let (t, n, s, h) ← t.newIns c.toNat s h
      return (t, br + n, s, h)
  else return (t, br, s, h)

/-- Transaction.cpp:383-391: segwit flag; `false` means an unsupported flag. -/
def readFlag (t : HTx) (br : Nat) (s : PStream) : Bool × Nat × PStream :=
  if s.avail ∧ t.segwitFlag > 0 ∧ br + t.bytesParsed = 5 then
    let (c, s) := s.readByte
    (c = 1, br + 1, s)
  else (true, br, s)

/-- Transaction.cpp:392-399: input count of a segwit transaction. -/
def readSegwitCount (t : HTx) (br : Nat) (s : PStream) (h : Heap) : C (HTx × Nat × PStream × Heap) :=
  if s.avail ∧ t.segwitFlag > 0 ∧ br + t.bytesParsed = 6 then do
    let (c, s) := s.readByte
    let (t, n, s, h) ← t.newIns c.toNat s h
    return (t, br + 1 + n, s, h)
  else return (t, br, s, h)

/-- Transaction.cpp:410-413: offset of the output count. -/
def outOffset (t : HTx) : Nat := 5 + 2 * t.segwitFlag + (t.txIns.map (·.length)).sum

/-- Transaction.cpp:432-435: offset of the witnesses. -/
def witOffset (t : HTx) : Nat := t.outOffset + 1 + (t.txOuts.map (·.length)).sum

/-- Transaction.cpp:453-455: offset of the locktime; the length of a witness is Script.cpp `Witness::length`. -/
def lockOffset (t : HTx) : Nat :=
  t.witOffset + (if t.segwitFlag > 0 then (t.txIns.map fun i => lenVarIntN i.witness.numElements + i.witness.witnessLen).sum else 0)

/-- Transaction.cpp:414-421: output count. -/
def readOutCount (t : HTx) (br : Nat) (s : PStream) (h : Heap) : C (HTx × Nat × PStream × Heap) :=
  if s.avail ∧ br + t.bytesParsed = t.outOffset then do
    let (c, s) := s.readByte
    let (t, n, s, h) ← t.newOuts c.toNat s h
    return (t, br + 1 + n, s, h)
  else return (t, br, s, h)

/-- Transaction.cpp:463-479: all parts have been parsed. -/
def completed (t : HTx) : Bool :=
  t.txIns.all (fun i => i.status = .done ∧ (t.segwitFlag > 0 → i.witness.status = .done)) &&
  t.txOuts.all (fun o => o.status = .done)

/-- Transaction.cpp:457-485: locktime and final status. -/
def readLock (t : HTx) (br : Nat) (s : PStream) (h : Heap) : C (HTx × Nat × PStream × Heap) := do
  h.access t.inPtr t.txIns.length
  h.access t.outPtr t.txOuts.length
  let pos := br + t.bytesParsed
  let (q, s) := s.readN (t.lockOffset + 4 - pos)
  if q ≠ [] ∧ pos < t.lockOffset then .ub
  else
    let t := { t with locktime := accLE t.locktime (pos - t.lockOffset) q }
    let br := br + q.length
    return t.finish (if br + t.bytesParsed = t.lockOffset + 4 ∧ t.completed then .done else t.status) br s h

/-- Transaction.cpp:436-456: witnesses. -/
def readWitnesses (t : HTx) (br : Nat) (s : PStream) (h : Heap) : C (HTx × Nat × PStream × Heap) :=
  if t.segwitFlag > 0 then do
    h.access t.inPtr t.txIns.length
    let (ins, n, s, h) ← if br + t.bytesParsed = t.witOffset then parseAll HTxIn.parseWitness t.txIns s h
      else pure (t.txIns, 0, s, h)
    let (ins, m, s, r, h) ← contLoop HTxIn.parseWitness (·.witness.status) ins s h
    let t := { t with txIns := ins }
    if r then t.readLock (br + n + m) s h else return t.finish .failed (br + n + m) s h
  else t.readLock br s h

/-- Transaction.cpp:410-485. -/
def readOuts (t : HTx) (br : Nat) (s : PStream) (h : Heap) : C (HTx × Nat × PStream × Heap) := do
  h.access t.inPtr t.txIns.length
  let (t, br, s, h) ← t.readOutCount br s h
  h.access t.outPtr t.txOuts.length
  let (outs, m, s, r, h) ← contLoop HTxOut.fromStream (·.status) t.txOuts s h
  let t := { t with txOuts := outs }
  if r then t.readWitnesses (br + m) s h else return t.finish .failed (br + m) s h

/-- Transaction.cpp:400-485. -/
def readIns (t : HTx) (br : Nat) (s : PStream) (h : Heap) : C (HTx × Nat × PStream × Heap) := do
  h.access t.inPtr t.txIns.length
  let (ins, m, s, r, h) ← contLoop HTxIn.fromStream (·.status) t.txIns s h
  let t := { t with txIns := ins }
  if r then t.readOuts (br + m) s h else return t.finish .failed (br + m) s h

/-- Transaction.cpp:352-486 `from_stream`. -/
def fromStream (t : HTx) (s : PStream) (h : Heap) : C (HTx × Nat × PStream × Heap) :=
  if t.status = .failed ∨ t.status = .ub then return (t, 0, s, h)
  else do
    let (t, h) ← t.start h
    let (t, br, s, h) ← t.readVersion s h
    let (good, br, s) := t.readFlag br s
    if good then
      let (t, br, s, h) ← t.readSegwitCount br s h
      t.readIns br s h
    else return t.finish .failed br s h

end HTx

end UB
