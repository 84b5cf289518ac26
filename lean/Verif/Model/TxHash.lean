import Verif.Model.Transaction
import Verif.Model.Hash

/-
Model of the hashes of a transaction: Transaction.cpp:487-579, 628-696.
The hash object receives sub-objects byte by byte through `to_stream`; it never is full
(`available()` is the constant 100, Hash.h:18).
-/

namespace UB

namespace HashObj

/-- `s.serialize(&x, 0)`: BaseClasses.cpp:10-12, `to_stream` writing single bytes. -/
def feed (h : HashObj) (toStream : Option Nat → Nat → C Bytes) : C HashObj := do
  let bs ← toStream none 0
  return bs.foldl writeByte h

/-- `for(...) s.serialize(&x[i], 0);` -/
def feedAll (h : HashObj) : List (Option Nat → Nat → C Bytes) → C HashObj
  | [] => .ok h
  | f :: fs => do
    let h ← h.feed f
    h.feedAll fs

/-- `intToLittleEndian(n, arr, k); s.write(arr, k);` -/
def writeInt (h : HashObj) (n : UInt64) (k : Nat) : C HashObj := do
  let arr ← intToLittleEndian n k
  return h.write arr

/-- `size_t l = writeVarInt(n, arr, 10); s.write(arr, l);` -/
def writeCount (h : HashObj) (n : Nat) : C HashObj := do
  let (l, arr) ← writeVarInt (UInt64.ofNat n) (zeros 10)
  return h.write (arr.take l)

end HashObj

namespace Tx

/-- Transaction.cpp:497-505: input `i` with its script replaced or emptied. -/
def sigIn (script : Script) (idx : UInt8) (ti : TxIn × Nat) : TxIn :=
  let t := ti.1.copy
  if ti.2 = idx.toNat then { t with scriptSig := t.scriptSig.assign script }
  else { t with scriptSig := t.scriptSig.assign {} }

/-- Transaction.cpp:487-518 `sigHash`.  `scriptPubkey` is passed by value. -/
def sigHash (t : Tx) (inputIndex : UInt8) (scriptPubkey : Script) (sighash : UInt32) : C Bytes := do
  let script := scriptPubkey.copy
  let s := newDoubleSha
  let s ← s.writeInt t.version.toUInt64 4
  let s ← s.writeCount t.txIns.length
  let s ← s.feedAll ((t.txIns.zipIdx.map (sigIn script inputIndex)).map TxIn.toStream)
  let s ← s.writeCount t.txOuts.length
  let s ← s.feedAll (t.txOuts.map TxOut.toStream)
  let s ← s.writeInt t.locktime.toUInt64 4
  let s ← s.writeInt sighash.toUInt64 4
  return s.fin

/-- Transaction.cpp:519-541 `hash`. -/
def hash (t : Tx) : C Bytes := do
  let s := newDoubleSha
  let s ← s.writeInt t.version.toUInt64 4
  let s ← s.writeCount t.txIns.length
  let s ← s.feedAll (t.txIns.map TxIn.toStream)
  let s ← s.writeCount t.txOuts.length
  let s ← s.feedAll (t.txOuts.map TxOut.toStream)
  let s ← s.writeInt t.locktime.toUInt64 4
  return s.fin

/-- Transaction.cpp:542-570 `whash`. -/
def whash (t : Tx) : C Bytes := do
  let s := newDoubleSha
  let s ← s.writeInt t.version.toUInt64 4
  let s := s.write [0, 1]
  let s ← s.writeCount t.txIns.length
  let s ← s.feedAll (t.txIns.map TxIn.toStream)
  let s ← s.writeCount t.txOuts.length
  let s ← s.feedAll (t.txOuts.map TxOut.toStream)
  let s ← s.feedAll (t.txIns.map fun i => i.witness.toStream)
  let s ← s.writeInt t.locktime.toUInt64 4
  return s.fin

/-- Transaction.cpp:571-578 `txid`. -/
def txid (t : Tx) : C Bytes := do
  let h ← t.hash
  return h.reverse

/-- Transaction.cpp:579-586 `wtxid`. -/
def wtxid (t : Tx) : C Bytes := do
  let h ← t.whash
  return h.reverse

/-- The loop of Transaction.cpp:631-636. -/
def feedPrevouts (s : HashObj) : List TxIn → C HashObj
  | [] => .ok s
  | i :: is => do
    let s ← (s.write i.hash).writeInt i.outputIndex.toUInt64 4
    feedPrevouts s is

/-- Transaction.cpp:628-639 `hashPrevouts`. -/
def hashPrevouts (t : Tx) : C Bytes := do
  let s ← feedPrevouts newDoubleSha t.txIns
  return s.fin

/-- The loop of Transaction.cpp:644-648. -/
def feedSequences (s : HashObj) : List TxIn → C HashObj
  | [] => .ok s
  | i :: is => do
    let s ← s.writeInt i.sequence.toUInt64 4
    feedSequences s is

/-- Transaction.cpp:641-651 `hashSequence`. -/
def hashSequence (t : Tx) : C Bytes := do
  let s ← feedSequences newDoubleSha t.txIns
  return s.fin

/-- Transaction.cpp:653-661 `hashOutputs`. -/
def hashOutputs (t : Tx) : C Bytes := do
  let s ← newDoubleSha.feedAll (t.txOuts.map TxOut.toStream)
  return s.fin

/-- Transaction.cpp:663-696 `sigHashSegwit`; an input index past the end reads outside the array. -/
def sigHashSegwit (t : Tx) (inputIndex : UInt8) (scriptPubKey : Script) (amount : UInt64)
    (sighash : UInt32) : C Bytes := do
  let script := scriptPubKey.copy
  let s := newDoubleSha
  let s ← s.writeInt t.version.toUInt64 4
  let h ← t.hashPrevouts
  let s := s.write h
  let h ← t.hashSequence
  let s := s.write h
  match t.txIns[inputIndex.toNat]? with
  | none => .ub
  | some i =>
    let s := s.write i.hash
    let s ← s.writeInt i.outputIndex.toUInt64 4
    let s ← s.feed script.toStream
    let s ← s.writeInt amount 8
    let s ← s.writeInt i.sequence.toUInt64 4
    let h ← t.hashOutputs
    let s := s.write h
    let s ← s.writeInt t.locktime.toUInt64 4
    let s ← s.writeInt sighash.toUInt64 4
    return s.fin

end Tx
end UB
