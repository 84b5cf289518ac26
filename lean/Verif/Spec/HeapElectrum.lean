import Verif.Model.HeapElectrum
import Verif.Spec.HeapPsbtLoss

/-! # What programs with several ElectrumTx variables should do

Every variable has a value of its own (Model/Electrum.lean and Model/Copy.lean, where no addresses exist); a statement changes the value of
the variable it is about and of no other. Beside the value it is recorded whether the object is `spoiled`: it holds an address that has been
given back already. -/

namespace UB

/-- The transaction that a call of `from_stream` parses, as far as it gets; `none`: the call does not come to the transaction, or has it
already. -/
def ElectrumTx.parsed (e : ElectrumTx) (s : PStream) : Option Tx :=
  if e.status = .failed ∨ e.status = .ub then none
  else
    let e := e.start
    let r := ElectrumTx.readMagic (ElectrumTx.magic.drop e.bytesParsed) s
    if r.1 = true ∧ e.isSegwit = false ∧ r.2.2.avail = true then some (e.tx.fromStream r.2.2).1 else none

/-- A transaction that was refused because of its first witness, while another witness had been read and holds bytes. -/
def Tx.spoils (t : Tx) : Bool :=
  decide (t.status = .failed) && (match t.txIns with
    | i :: _ => decide (i.witness.status = .failed)
    | [] => false) && t.txIns.any fun i => decide (i.witness.arr ≠ [])

/-- The call of `from_stream` leaves an address behind that has been given back. -/
def ElectrumTx.spoils (e : ElectrumTx) (s : PStream) : Bool := match e.parsed s with
  | some t => t.spoils
  | none => false

/-- At most so many blocks without elements are left behind when a new transaction replaces the old one: that of the metadata, if there are
no inputs. -/
def ElectrumTx.dropLoss (e : ElectrumTx) : Nat := if e.tx.txIns = [] then 1 else 0

/-- At most so many blocks are left behind by parsing: the two arrays without elements of the copy of `Tx()`, that of the metadata, and those of
the transaction. -/
def ElectrumTx.parseLoss (e : ElectrumTx) (s : PStream) : Nat :=
  (if e.status = .done then 2 + e.dropLoss else 0) + match e.parsed s with
    | some t => t.zeroCounts
    | none => 0

/-- An object from which a copy can be made: it is not in the middle of a document (such a copy would begin with the transaction again, as
`is_segwit` is not copied), there is metadata for each input, and no script is half read. -/
def ElectrumTx.Full (e : ElectrumTx) : Prop := e.status ≠ .incomplete ∧ e.tx.txIns.length ≤ e.metas.length ∧
  (∀ i ∈ e.tx.txIns, i.scriptSig.status = .done) ∧ ∀ o ∈ e.tx.txOuts, o.scriptPubkey.status = .done

namespace Spec

/-- The value of each variable, and whether it is spoiled. -/
abbrev EVals := Nat → Option (ElectrumTx × Bool)

namespace EVals

def put (vs : EVals) (x : Nat) (v : Option (ElectrumTx × Bool)) : EVals := fun y => if y = x then v else vs y

def step (vs : EVals) : EOp → EVals
  | .new x => match vs x with
    | none => vs.put x (some ({}, false))
    | some _ => vs
  | .copy x y => match vs x, vs y with
    | none, some v => match v.1.copy with
      | .ok u => vs.put x (some (u, false))
      | .ub => vs
    | _, _ => vs
  | .assign x y =>
    if x = y then vs
    else match vs x, vs y with
      | some w, some v => match w.1.assign v.1 with
        | .ok u => vs.put x (some (u, false))
        | .ub => vs
      | _, _ => vs
  | .parse x junk fuel s => match vs x with
    | some v => match v.1.fromStream junk fuel s with
      | some r => vs.put x (some (r.1, v.2 || v.1.spoils s))
      | none => vs
    | none => vs
  | .destroy x => match vs x with
    | some _ => vs.put x none
    | none => vs

/-- What parsing should tell. -/
def out (vs : EVals) : EOp → Option EOut
  | .parse x junk fuel s => (vs x).bind fun v => (v.1.fromStream junk fuel s).map fun r => ⟨r.2.1, r.2.2, r.1.status⟩
  | _ => none

def run : List EOp → EVals → EVals
  | [], vs => vs
  | op :: ops, vs => run ops (vs.step op)

def outs : List EOp → EVals → List (Option EOut)
  | [], _ => []
  | op :: ops, vs => vs.out op :: outs ops (vs.step op)

end EVals

/-- What a program must respect. Copies are made of objects with all their metadata and no half-read script. A spoiled object is neither
destroyed nor assigned to, and not parsed into again once it is complete. The parser comes to an end and has no undefined behaviour on the
bytes themselves. -/
def EAllowed (vs : EVals) : EOp → Prop
  | .new _ => True
  | .copy _ y => ∀ v, vs y = some v → v.1.Full
  | .assign x y => x ≠ y → (∀ v, vs y = some v → v.1.Full) ∧ ∀ w, vs x = some w → w.2 = false
  | .parse x junk fuel s => ∀ v, vs x = some v → (∃ r, v.1.fromStream junk fuel s = some r ∧ r.1.status ≠ .ub) ∧ (v.1.status = .done → v.2 = false)
  | .destroy x => ∀ v, vs x = some v → v.2 = false

/-- Every statement of the program respects this in the state it is executed in. -/
def EAllAllowed : List EOp → EVals → Prop
  | [], _ => True
  | op :: ops, vs => EAllowed vs op ∧ EAllAllowed ops (vs.step op)

/-- At most so many blocks are lost by a statement. -/
def elosses (vs : EVals) : EOp → Nat
  | .copy x y => match vs x, vs y with
    | none, some v => v.1.tx.emptyArrays
    | _, _ => 0
  | .assign x y =>
    if x = y then 0
    else match vs x, vs y with
      | some w, some v => w.1.dropLoss + v.1.tx.emptyArrays
      | _, _ => 0
  | .parse x _ _ s => match vs x with
    | some v => v.1.parseLoss s
    | none => 0
  | _ => 0

def eallLosses : List EOp → EVals → Nat
  | [], _ => 0
  | op :: ops, vs => elosses vs op + eallLosses ops (vs.step op)

/-- The variable a statement constructs, changes or destroys. -/
def etarget : EOp → Nat
  | .new x | .copy x _ | .assign x _ | .parse x _ _ _ | .destroy x => x

end Spec

/-! ### What can be read from a variable -/

/-- What can be read from an ElectrumTx object: the transaction, and what is known about each input. -/
structure ElectrumView where
  status : Status
  tx : Tx
  metas : List ElectrumMeta

/-- Reads as `sign` and `fee` do: as many entries as the transaction has inputs. -/
def HElectrumTx.view (e : HElectrumTx) (h : Heap) : C ElectrumView := do
  let t ← e.tx.load h
  h.access e.ptr e.tx.txIns.length
  if e.metas.length < e.tx.txIns.length then .ub
  else return ⟨e.status, t, e.metas⟩

def EWorld.view (W : EWorld) (x : Nat) : C ElectrumView := match W.objs x with
  | some o => o.view W.heap
  | none => .ub

/-- What is to be read from the value. -/
def Spec.viewElectrum (v : ElectrumTx) : ElectrumView := ⟨v.status, v.tx, v.metas⟩

end UB
