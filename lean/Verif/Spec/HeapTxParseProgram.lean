import Verif.Spec.HeapTxProgram
import Verif.Model.HeapTxParseProgram

/-! # What programs that also parse should do

Parsing changes the value of the variable as in Model/Transaction.lean, where no addresses exist, and nothing else. -/

namespace UB.Spec

namespace TVal

/-- `getStatus()`. -/
def status : TVal → Status
  | .txIn v _ => v.status
  | .txOut v => v.status
  | .tx v _ => v.status

/-- Parsing. The inputs of a transaction are new objects. -/
def parse : TVal → PStream → TVal
  | .txIn v e, s => .txIn (v.fromStream s).1 e
  | .txOut v, s => .txOut (v.fromStream s).1
  | .tx v _, s => .tx (v.fromStream s).1 ((v.fromStream s).1.txIns.map holds)

/-- What the call tells. -/
def told : TVal → PStream → POut
  | .txIn v _, s => ⟨(v.fromStream s).2.1, (v.fromStream s).2.2, (v.fromStream s).1.status⟩
  | .txOut v, s => ⟨(v.fromStream s).2.1, (v.fromStream s).2.2, (v.fromStream s).1.status⟩
  | .tx v _, s => ⟨(v.fromStream s).2.1, (v.fromStream s).2.2, (v.fromStream s).1.status⟩

/-- Counts of inputs or outputs that have been read and were 0: the count of inputs is the byte after version, marker and flag (a
transaction without marker cannot have the count 0, it is the marker), the count of outputs follows the inputs. -/
def hollow : TVal → Nat
  | .tx v _ => (if v.txIns = [] ∧ 0 < v.segwitFlag ∧ 6 < v.bytesParsed then 1 else 0) + if v.txOuts = [] ∧ v.outOffset < v.bytesParsed then 1 else 0
  | _ => 0

end TVal

namespace TVals

/-- One statement. -/
def pstep (vs : TVals) : POp → TVals
  | .op o => vs.step o
  | .parse x s => match vs x with
    | some v => vs.put x (some (v.parse s))
    | none => vs

/-- What it tells. -/
def pout (vs : TVals) : POp → Option POut
  | .op _ => none
  | .parse x s => (vs x).map fun v => v.told s

def prun : List POp → TVals → TVals
  | [], vs => vs
  | op :: ops, vs => prun ops (vs.pstep op)

def pouts : List POp → TVals → List (Option POut)
  | [], _ => []
  | op :: ops, vs => vs.pout op :: pouts ops (vs.pstep op)

end TVals

/-- The operands of a statement are complete (`PARSING_DONE`). A transaction that is assigned to, and a variable that is destroyed, need
not be. -/
def PReady (vs : TVals) : TOp → Prop
  | .copy _ y => ∀ v, vs y = some v → v.status = .done
  | .assign x y => (∀ v, vs y = some v → v.status = .done) ∧ (∀ v e, vs x = some (.txIn v e) → v.status = .done) ∧ ∀ v, vs x = some (.txOut v) → v.status = .done
  | .addInput x y | .addOutput x y => (∀ v, vs x = some v → v.status = .done) ∧ ∀ v, vs y = some v → v.status = .done
  | .onIn x _ | .onInput x _ _ => ∀ v, vs x = some v → v.status = .done
  | _ => True

/-- What a program must respect: what programs without parsing must (`TAllowed`), complete operands, and no parsing into a transaction
with an emptied witness, nor of bytes where the parser itself has undefined behaviour (C81). -/
def PAllowed (vs : TVals) : POp → Prop
  | .op o => TAllowed vs o ∧ PReady vs o
  | .parse x s => ∀ v, vs x = some v → (v.parse s).status ≠ .ub ∧ ∀ t e, v = .tx t e → ¬ v.Spoilt

/-- Every statement of the program respects this in the state it is executed in. -/
def PAllAllowed : List POp → TVals → Prop
  | [], _ => True
  | op :: ops, vs => PAllowed vs op ∧ PAllAllowed ops (vs.pstep op)

/-- At most so many blocks are lost by a statement. -/
def plosses (vs : TVals) : POp → Nat
  | .op o => tlosses vs o
  | .parse x s => match vs x with
    | some v => (v.parse s).hollow
    | none => 0

def pallLosses : List POp → TVals → Nat
  | [], _ => 0
  | op :: ops, vs => plosses vs op + pallLosses ops (vs.pstep op)

end UB.Spec
