import Verif.Model.HeapTx

/-! # Programs with several `TxIn`, `TxOut` and `Tx` variables

A program is a sequence of the statements a user of Transaction.cpp writes: construct, copy, assign, add inputs and outputs, fill
witnesses, replace scripts, clear, destroy. Return values are dropped. A statement about a variable or an array element that does not
exist, or between variables of different classes, is skipped; so is the construction of a variable that exists. -/

namespace UB

/-- A variable. -/
inductive TObj where
  | txIn (o : HTxIn)
  | txOut (o : HTxOut)
  | tx (o : HTx)
deriving DecidableEq, Repr

/-- The variables of a program and the heap. -/
structure TWorld where
  heap : Heap
  objs : Nat → Option TObj

/-- What is done to the members of an input `t`. -/
inductive InOp where
  /-- `t.witness.push(data, len);` (Script.cpp:651) -/
  | push (data : Bytes)
  /-- `t.witness.clear();` (Script.cpp:507) -/
  | clearWitness
  /-- `t.scriptSig = Script(data, len);` (Script.cpp:136, 483) -/
  | setScript (data : Bytes)

/-- The statements, with the members of Transaction.cpp they call. -/
inductive TOp where
  /-- `TxIn x(prev_id, prev_index, Script(data, len), sequence);` (Transaction.cpp:37) -/
  | newIn (x : Nat) (prevId : Bytes) (idx : UInt32) (data : Bytes) (seq : UInt32)
  /-- `TxOut x(amount, Script(data, len));` (Bitcoin.h:633) -/
  | newOut (x : Nat) (amount : UInt64) (data : Bytes)
  /-- `Tx x;` (Transaction.cpp:199) -/
  | newTx (x : Nat)
  /-- `T x = y;` (implicit, Transaction.cpp:212) -/
  | copy (x y : Nat)
  /-- `x = y;` (implicit, Transaction.cpp:230) -/
  | assign (x y : Nat)
  /-- `x.addInput(y);` (Transaction.cpp:601) -/
  | addInput (x y : Nat)
  /-- `x.addOutput(y);` (Transaction.cpp:614) -/
  | addOutput (x y : Nat)
  /-- a change of the input `x` -/
  | onIn (x : Nat) (op : InOp)
  /-- a change of `x.txIns[i]` -/
  | onInput (x i : Nat) (op : InOp)
  /-- the end of the lifetime of `x` (implicit, Transaction.cpp:255) -/
  | destroy (x : Nat)

namespace HTxIn

/-- A change of the members of an input. -/
def act (t : HTxIn) (h : Heap) : InOp → C (HTxIn × Heap)
  | .push data => do
    let (w, _, h) ← t.witness.push data h
    return ({ t with witness := w }, h)
  | .clearWitness => do
    let (w, h) ← t.witness.clear h
    return ({ t with witness := w }, h)
  | .setScript data => do
    let (arg, h) ← HScript.ofBuffer data h
    let (sc, h) ← t.scriptSig.assign arg h
    let h ← arg.destroy h
    return ({ t with scriptSig := sc }, h)

end HTxIn

namespace TWorld

/-- A program before its first statement, on a machine with the given allocator. -/
def init (denies : Nat → Nat → Bool) : TWorld := ⟨⟨fun _ => none, 0, denies⟩, fun _ => none⟩

/-- The variable `x` and the heap after a statement. -/
def put (W : TWorld) (x : Nat) (o : Option TObj) (h : Heap) : TWorld := ⟨h, fun y => if y = x then o else W.objs y⟩

/-- One statement. Assigning a variable to itself does nothing: Script.cpp:484, 705, Transaction.cpp:231 compare the addresses. -/
def step (W : TWorld) : TOp → C TWorld
  | .newIn x prevId idx data seq => match W.objs x with
    | none => do
      let (o, h) ← HTxIn.make prevId idx data seq W.heap
      return W.put x (some (.txIn o)) h
    | _ => .ok W
  | .newOut x amount data => match W.objs x with
    | none => do
      let (o, h) ← HTxOut.make amount data W.heap
      return W.put x (some (.txOut o)) h
    | _ => .ok W
  | .newTx x => match W.objs x with
    | none => .ok (W.put x (some (.tx {})) W.heap)
    | _ => .ok W
  | .copy x y => match W.objs x, W.objs y with
    | none, some (.txIn o) => do
      let (o, h) ← o.copy W.heap
      return W.put x (some (.txIn o)) h
    | none, some (.txOut o) => do
      let (o, h) ← o.copy W.heap
      return W.put x (some (.txOut o)) h
    | none, some (.tx o) => do
      let (o, h) ← o.copy W.heap
      return W.put x (some (.tx o)) h
    | _, _ => .ok W
  | .assign x y =>
    if x = y then .ok W
    else match W.objs x, W.objs y with
    | some (.txIn s), some (.txIn o) => do
      let (o, h) ← s.assign o W.heap
      return W.put x (some (.txIn o)) h
    | some (.txOut s), some (.txOut o) => do
      let (o, h) ← s.assign o W.heap
      return W.put x (some (.txOut o)) h
    | some (.tx s), some (.tx o) => do
      let (o, h) ← s.assign o W.heap
      return W.put x (some (.tx o)) h
    | _, _ => .ok W
  | .addInput x y => match W.objs x, W.objs y with
    | some (.tx s), some (.txIn o) => do
      let (s, _, h) ← s.addInput o W.heap
      return W.put x (some (.tx s)) h
    | _, _ => .ok W
  | .addOutput x y => match W.objs x, W.objs y with
    | some (.tx s), some (.txOut o) => do
      let (s, _, h) ← s.addOutput o W.heap
      return W.put x (some (.tx s)) h
    | _, _ => .ok W
  | .onIn x op => match W.objs x with
    | some (.txIn o) => do
      let (o, h) ← o.act W.heap op
      return W.put x (some (.txIn o)) h
    | _ => .ok W
  | .onInput x i op => match W.objs x with
    | some (.tx t) => match t.txIns[i]? with
      | some o => do
        W.heap.access t.inPtr t.txIns.length
        let (o, h) ← o.act W.heap op
        return W.put x (some (.tx { t with txIns := t.txIns.set i o })) h
      | none => .ok W
    | _ => .ok W
  | .destroy x => match W.objs x with
    | some (.txIn o) => do
      let h ← o.destroy W.heap
      return W.put x none h
    | some (.txOut o) => do
      let h ← o.destroy W.heap
      return W.put x none h
    | some (.tx o) => do
      let h ← o.destroy W.heap
      return W.put x none h
    | none => .ok W

/-- A sequence of statements. -/
def run : List TOp → TWorld → C TWorld
  | [], W => .ok W
  | op :: ops, W => do
    let W ← W.step op
    run ops W

end TWorld

end UB
