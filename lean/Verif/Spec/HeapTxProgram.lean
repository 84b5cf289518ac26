import Verif.Model.HeapTxProgram
import Verif.Lemmas.HeapScript

/-! # What programs with several transactions should do

Every variable has a value of its own (Model/Transaction.lean, where no addresses exist); a statement changes the value of the variable
it is about and of no other. -/

namespace UB.Spec

/-- The value of a variable; of every input also whether its witness has held bytes in its life. -/
inductive TVal where
  | txIn (v : TxIn) (ever : Bool)
  | txOut (v : TxOut)
  | tx (v : Tx) (ever : List Bool)
deriving DecidableEq, Repr

abbrev TVals := Nat → Option TVal

/-- The value of `TxIn(prev_id, prev_index, Script(data, len), sequence)`. -/
def inOf (prevId : Bytes) (idx : UInt32) (data : Bytes) (seq : UInt32) : TxIn :=
  { outputIndex := idx, sequence := seq, hash := prevId.reverse, scriptSig := ({} : Script).assign (Script.ofBuffer data) }

/-- The value of `TxOut(amount, Script(data, len))`. -/
def outOf (amount : UInt64) (data : Bytes) : TxOut := { amount := amount, scriptPubkey := ({} : Script).assign (Script.ofBuffer data) }

/-- The witness holds bytes. -/
def holds (v : TxIn) : Bool := decide (v.witness.arr ≠ [])

/-- A change of the members of an input. -/
def actOn (v : TxIn) : InOp → TxIn
  | .push data => match v.witness.push data with
    | .ok (w, _) => { v with witness := w }
    | .ub => v
  | .clearWitness => { v with witness := v.witness.clear }
  | .setScript data => { v with scriptSig := v.scriptSig.assign (Script.ofBuffer data) }

/-- An input whose witness has held bytes and holds none. -/
def Emptied (v : TxIn) (ever : Bool) : Prop := v.witness.arr = [] ∧ ever = true

namespace TVal

/-- All scripts are complete: none is in the middle of being parsed. -/
def Done : TVal → Prop
  | .txIn v _ => v.scriptSig.status = .done
  | .txOut v => v.scriptPubkey.status = .done
  | .tx v _ => (∀ i ∈ v.txIns, i.scriptSig.status = .done) ∧ ∀ o ∈ v.txOuts, o.scriptPubkey.status = .done

/-- Some input has been emptied. -/
def Spoilt : TVal → Prop
  | .txIn v e => Emptied v e
  | .txOut _ => False
  | .tx v e => ∃ i ∈ v.txIns.zip e, Emptied i.1 i.2

end TVal

namespace TVals

def put (vs : TVals) (x : Nat) (v : Option TVal) : TVals := fun y => if y = x then v else vs y

/-- An input that had held bytes (`ever`) and is now `v`. -/
def inp (v : TxIn) (ever : Bool) : Option TVal := some (.txIn v (ever || holds v))

/-- A transaction whose inputs are new. -/
def fresh (v : Tx) : Option TVal := some (.tx v (v.txIns.map holds))

/-- One statement. -/
def step (vs : TVals) : TOp → TVals
  | .newIn x prevId idx data seq => match vs x with
    | none => vs.put x (inp (inOf prevId idx data seq) false)
    | _ => vs
  | .newOut x amount data => match vs x with
    | none => vs.put x (some (.txOut (outOf amount data)))
    | _ => vs
  | .newTx x => match vs x with
    | none => vs.put x (fresh {})
    | _ => vs
  | .copy x y => match vs x, vs y with
    | none, some (.txIn o _) => vs.put x (inp o.copy false)
    | none, some (.txOut o) => vs.put x (some (.txOut o.copy))
    | none, some (.tx o _) => vs.put x (fresh o.copy)
    | _, _ => vs
  | .assign x y =>
    if x = y then vs
    else match vs x, vs y with
    | some (.txIn s e), some (.txIn o _) => vs.put x (inp (s.assign o) e)
    | some (.txOut s), some (.txOut o) => vs.put x (some (.txOut (s.assign o)))
    | some (.tx _ _), some (.tx o _) => vs.put x (fresh o.copy)
    | _, _ => vs
  | .addInput x y => match vs x, vs y with
    | some (.tx s _), some (.txIn o _) => vs.put x (fresh (s.addInput o).1)
    | _, _ => vs
  | .addOutput x y => match vs x, vs y with
    | some (.tx s e), some (.txOut o) => vs.put x (some (.tx (s.addOutput o).1 e))
    | _, _ => vs
  | .onIn x op => match vs x with
    | some (.txIn v e) => vs.put x (inp (actOn v op) e)
    | _ => vs
  | .onInput x i op => match vs x with
    | some (.tx v e) => match v.txIns[i]?, e[i]? with
      | some t, some b => vs.put x (some (.tx { v with txIns := v.txIns.set i (actOn t op) } (e.set i (b || holds (actOn t op)))))
      | _, _ => vs
    | _ => vs
  | .destroy x => vs.put x none

def run : List TOp → TVals → TVals
  | [], vs => vs
  | op :: ops, vs => run ops (vs.step op)

end TVals

/-- What a program must respect: no transaction is overwritten, extended with an input or destroyed, and no input destroyed, when a witness
in it has held bytes and holds none. -/
def TAllowed (vs : TVals) : TOp → Prop
  | .assign x y => x ≠ y → ∀ v e w f, vs x = some (.tx v e) → vs y = some (.tx w f) → ¬ (TVal.tx v e).Spoilt
  | .addInput x y => ∀ v e w f, vs x = some (.tx v e) → vs y = some (.txIn w f) → ¬ (TVal.tx v e).Spoilt
  | .destroy x => ∀ v, vs x = some v → ¬ v.Spoilt
  | _ => True

/-- The operands of a statement are complete: none is in the middle of being parsed. A transaction that is assigned to need not be. -/
def TReady (vs : TVals) : TOp → Prop
  | .copy _ y => ∀ v, vs y = some v → v.Done
  | .assign x y => (∀ v, vs y = some v → v.Done) ∧ (∀ v e, vs x = some (.txIn v e) → (TVal.txIn v e).Done) ∧
      ∀ v, vs x = some (.txOut v) → (TVal.txOut v).Done
  | .addInput x y | .addOutput x y => (∀ v, vs x = some v → v.Done) ∧ ∀ v, vs y = some v → v.Done
  | .onIn x _ | .onInput x _ _ => ∀ v, vs x = some v → v.Done
  | _ => True

/-- Every statement of the program respects this in the state it is executed in. -/
def TAllAllowed : List TOp → TVals → Prop
  | [], _ => True
  | op :: ops, vs => TAllowed vs op ∧ TAllAllowed ops (vs.step op)

/-- Arrays without elements. -/
def emptyArrays (v : Tx) : Nat := (if v.txIns = [] then 1 else 0) + (if v.txOuts = [] then 1 else 0)

/-- Blocks lost by a statement: the arrays without elements that copying or assigning a transaction makes. -/
def tlosses (vs : TVals) : TOp → Nat
  | .copy x y => match vs x, vs y with
    | none, some (.tx o _) => emptyArrays o
    | _, _ => 0
  | .assign x y =>
    if x = y then 0
    else match vs x, vs y with
    | some (.tx _ _), some (.tx o _) => emptyArrays o
    | _, _ => 0
  | _ => 0

def tallLosses : List TOp → TVals → Nat
  | [], _ => 0
  | op :: ops, vs => tlosses vs op + tallLosses ops (vs.step op)

end UB.Spec

namespace UB

/-- What can be read from an input: its members, the bytes of its script and of its witness at their addresses. -/
structure InView where
  hash : Bytes
  outputIndex : UInt32
  scriptSig : Bytes
  sequence : UInt32
  elements : Nat
  witness : Bytes
deriving DecidableEq, Repr

/-- What can be read from an output. -/
structure OutView where
  amount : UInt64
  scriptPubkey : Bytes
deriving DecidableEq, Repr

/-- What can be read from a variable. -/
inductive TView where
  | txIn (v : InView)
  | txOut (v : OutView)
  | tx (version : UInt32) (ins : List InView) (outs : List OutView) (locktime : UInt32)
deriving DecidableEq, Repr

def HTxIn.view (t : HTxIn) (h : Heap) : C InView := do
  let sc ← h.read t.scriptSig.ptr 0 t.scriptSig.scriptLen
  let w ← h.read t.witness.ptr 0 t.witness.witnessLen
  return ⟨t.hash, t.outputIndex, sc, t.sequence, t.witness.numElements, w⟩

def HTxOut.view (t : HTxOut) (h : Heap) : C OutView := do
  let sc ← h.read t.scriptPubkey.ptr 0 t.scriptPubkey.scriptLen
  return ⟨t.amount, sc⟩

/-- The elements of an array read one after another. -/
def viewAll {α β : Type} (f : α → C β) : List α → C (List β)
  | [] => .ok []
  | x :: xs => do
    let y ← f x
    let ys ← viewAll f xs
    return y :: ys

/-- What can be read from a variable. -/
def TWorld.view (W : TWorld) (x : Nat) : C TView := match W.objs x with
  | some (.txIn o) => do
    let v ← o.view W.heap
    return .txIn v
  | some (.txOut o) => do
    let v ← o.view W.heap
    return .txOut v
  | some (.tx o) => do
    W.heap.access o.inPtr o.txIns.length
    W.heap.access o.outPtr o.txOuts.length
    let ins ← viewAll (HTxIn.view · W.heap) o.txIns
    let outs ← viewAll (HTxOut.view · W.heap) o.txOuts
    return .tx o.version ins outs o.locktime
  | none => .ub

namespace Spec

/-- What is to be read from the values. -/
def viewIn (v : TxIn) : InView := ⟨v.hash, v.outputIndex, v.scriptSig.bytes, v.sequence, v.witness.numElements, v.witness.arr⟩

def viewOut (v : TxOut) : OutView := ⟨v.amount, v.scriptPubkey.bytes⟩

def TVal.view : TVal → TView
  | .txIn v _ => .txIn (viewIn v)
  | .txOut v => .txOut (viewOut v)
  | .tx v _ => .tx v.version (v.txIns.map viewIn) (v.txOuts.map viewOut) v.locktime

end Spec

end UB
