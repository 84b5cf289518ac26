import Verif.Model.HeapPsbtProgram
import Verif.Spec.HeapPsbtLoss

/-! # What programs with several PSBT variables should do

Every variable has a value of its own (Model/PSBT.lean and Model/Copy.lean, where no addresses exist); a statement changes the value of the
variable it is about and of no other. -/

namespace UB.Spec

abbrev BVals := Nat → Option PSBT

namespace BVals

def put (vs : BVals) (x : Nat) (v : Option PSBT) : BVals := fun y => if y = x then v else vs y

def step (vs : BVals) : BOp → BVals
  | .new x => match vs x with
    | none => vs.put x (some {})
    | some _ => vs
  | .copy x y => match vs x, vs y with
    | none, some v => match v.copy with
      | .ok u => vs.put x (some u)
      | .ub => vs
    | _, _ => vs
  | .assign x y =>
    if x = y then vs
    else match vs x, vs y with
      | some w, some v => match w.assign v with
        | .ok u => vs.put x (some u)
        | .ub => vs
      | _, _ => vs
  | .parse x junk s => match vs x with
    | some v => vs.put x (some (PSBT.fromStream junk v s).1)
    | none => vs
  | .destroy x => match vs x with
    | some _ => vs.put x none
    | none => vs

/-- What parsing should tell. -/
def out (vs : BVals) : BOp → Option BOut
  | .parse x junk s => (vs x).map fun v =>
    ⟨(PSBT.fromStream junk v s).2.1, (PSBT.fromStream junk v s).2.2, (PSBT.fromStream junk v s).1.status⟩
  | _ => none

def run : List BOp → BVals → BVals
  | [], vs => vs
  | op :: ops, vs => run ops (vs.step op)

def outs : List BOp → BVals → List (Option BOut)
  | [], _ => []
  | op :: ops, vs => vs.out op :: outs ops (vs.step op)

end BVals

/-- What a program must respect. Copies are made of complete objects. An object that is assigned to or destroyed must be one that may be
destroyed (C77): `release` is defined on it. The parser has no undefined behaviour on the bytes themselves (C57, C82). -/
def BAllowed (vs : BVals) : BOp → Prop
  | .new _ => True
  | .copy _ y => ∀ v, vs y = some v → v.status = .done
  | .assign x y => x ≠ y → (∀ v, vs y = some v → v.status = .done) ∧ ∀ w, vs x = some w → w.release = .ok ()
  | .parse x junk s => ∀ v, vs x = some v → (PSBT.fromStream junk v s).1.status ≠ .ub
  | .destroy x => ∀ v, vs x = some v → v.release = .ok ()

/-- Every statement of the program respects this in the state it is executed in. -/
def BAllAllowed : List BOp → BVals → Prop
  | [], _ => True
  | op :: ops, vs => BAllowed vs op ∧ BAllAllowed ops (vs.step op)

/-- The same, where only complete objects are assigned to and destroyed. -/
def BPlain (vs : BVals) : BOp → Prop
  | .new _ => True
  | .copy _ y => ∀ v, vs y = some v → v.status = .done
  | .assign x y => x ≠ y → (∀ v, vs y = some v → v.status = .done) ∧ ∀ w, vs x = some w → w.status = .done
  | .parse x junk s => ∀ v, vs x = some v → (PSBT.fromStream junk v s).1.status ≠ .ub
  | .destroy x => ∀ v, vs x = some v → v.status = .done

def BAllPlain : List BOp → BVals → Prop
  | [], _ => True
  | op :: ops, vs => BPlain vs op ∧ BAllPlain ops (vs.step op)

/-- At most so many blocks are lost by a statement. -/
def blosses (vs : BVals) : BOp → Nat
  | .copy x y => match vs x, vs y with
    | none, some v => v.copyLoss
    | _, _ => 0
  | .assign x y =>
    if x = y then 0
    else match vs x, vs y with
      | some _, some v => v.assignLoss
      | _, _ => 0
  | .parse x junk s => match vs x with
    | some v => PSBT.parseLoss junk v s
    | none => 0
  | _ => 0

def ballLosses : List BOp → BVals → Nat
  | [], _ => 0
  | op :: ops, vs => blosses vs op + ballLosses ops (vs.step op)

/-- The variable a statement constructs, changes or destroys. -/
def target : BOp → Nat
  | .new x | .copy x _ | .assign x _ | .parse x _ _ | .destroy x => x

end UB.Spec

namespace UB

/-! ### What can be read from a variable -/

/-- A script, if it is complete. -/
def HScript.view (sc : HScript) (h : Heap) : C Script := if sc.status = .done then sc.load h else .ok { status := sc.status }

/-- A public key with its derivation path, read at its address. -/
def HDerivation.view (d : HDerivation) (h : Heap) : C Derivation :=
  if d.ready then do
    h.access d.ptr d.path.length
    return ⟨d.pubkey, true, d.fingerprint, d.path⟩
  else .ub

def HInMeta.view (m : HInMeta) (h : Heap) : C InMeta := do
  let o ← m.txOut.load h
  h.access m.derPtr m.ders.length
  let ds ← loadAll HDerivation.view m.ders h
  let r ← m.redeemScript.view h
  let w ← m.witnessScript.view h
  h.access m.sigPtr m.sigs.length
  return { txOut := o, derivations := ds, redeemScript := r, witnessScript := w, signatures := m.sigs }

def HOutMeta.view (m : HOutMeta) (h : Heap) : C OutMeta := do
  h.access m.derPtr m.ders.length
  let ds ← loadAll HDerivation.view m.ders h
  let r ← m.redeemScript.view h
  let w ← m.witnessScript.view h
  return { derivations := ds, redeemScript := r, witnessScript := w }

/-- What can be read from a PSBT object: the transaction, and what is known about each input and output. -/
structure PsbtView where
  status : Status
  tx : Tx
  ins : List InMeta
  outs : List OutMeta
deriving DecidableEq, Repr

/-- Reads as `sign` and `fee` do: as many entries as the transaction has inputs and outputs. -/
def HPSBT.view (p : HPSBT) (h : Heap) : C PsbtView := do
  let t ← p.tx.load h
  h.access p.insPtr p.tx.txIns.length
  if p.ins.length < p.tx.txIns.length then .ub
  else do
    let ins ← loadAll HInMeta.view (p.ins.take p.tx.txIns.length) h
    h.access p.outsPtr p.tx.txOuts.length
    if p.outs.length < p.tx.txOuts.length then .ub
    else do
      let outs ← loadAll HOutMeta.view (p.outs.take p.tx.txOuts.length) h
      return ⟨p.status, t, ins, outs⟩

def BWorld.view (W : BWorld) (x : Nat) : C PsbtView := match W.objs x with
  | some o => o.view W.heap
  | none => .ub

namespace Spec

/-- A script, if it is complete. -/
def viewScript (sc : Script) : Script := if sc.status = .done then sc else { status := sc.status }

def viewInMeta (m : InMeta) : InMeta := { m with redeemScript := viewScript m.redeemScript, witnessScript := viewScript m.witnessScript }

def viewOutMeta (m : OutMeta) : OutMeta := { m with redeemScript := viewScript m.redeemScript, witnessScript := viewScript m.witnessScript }

/-- What is to be read from the value. -/
def viewPsbt (v : PSBT) : PsbtView := ⟨v.status, v.tx, v.ins.map viewInMeta, v.outs.map viewOutMeta⟩

end Spec

end UB
