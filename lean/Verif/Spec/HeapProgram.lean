import Verif.Model.HeapProgram
import Verif.Lemmas.HeapScript

/-! # What programs with several scripts and witnesses should do

Every variable has a value of its own (Model/Script.lean, where no addresses exist); a statement changes the value of the variable it
is about and of no other. -/

namespace UB.Spec

/-- The value of a variable; of a witness also whether it has held bytes in its life. -/
inductive Val where
  | script (v : Script)
  | witness (v : Witness) (ever : Bool)
deriving DecidableEq, Repr

abbrev Vals := Nat → Option Val

namespace Vals

def put (vs : Vals) (x : Nat) (v : Option Val) : Vals := fun y => if y = x then v else vs y

/-- A witness that had held bytes (`ever`) and is now `v`. -/
def wit (v : Witness) (ever : Bool) : Option Val := some (.witness v (ever || decide (v.arr ≠ [])))

/-- One statement. -/
def step (vs : Vals) : Op → Vals
  | .newScript x => match vs x with
    | none => vs.put x (some (.script {}))
    | _ => vs
  | .ofBuffer x data => match vs x with
    | none => vs.put x (some (.script (Script.ofBuffer data)))
    | _ => vs
  | .copyScript x y => match vs x, vs y with
    | none, some (.script o) => vs.put x (some (.script o.copy))
    | _, _ => vs
  | .assignScript x y => match vs x, vs y with
    | some (.script s), some (.script o) => if x = y then vs else vs.put x (some (.script (s.assign o)))
    | _, _ => vs
  | .pushByte x code => match vs x with
    | some (.script s) => vs.put x (some (.script (s.pushByte code).1))
    | _ => vs
  | .pushData x data => match vs x with
    | some (.script s) => vs.put x (some (.script (s.pushData data).1))
    | _ => vs
  | .pushScript x y => match vs x, vs y with
    | some (.script s), some (.script o) => match s.pushScript o with
      | .ok (s, _) => vs.put x (some (.script s))
      | .ub => vs
    | _, _ => vs
  | .clearScript x => match vs x with
    | some (.script s) => vs.put x (some (.script s.clear))
    | _ => vs
  | .parseScript x bytes => match vs x with
    | some (.script s) => vs.put x (some (.script (s.fromStream ⟨bytes, false⟩).1))
    | _ => vs
  | .newWitness x => match vs x with
    | none => vs.put x (wit {} false)
    | _ => vs
  | .copyWitness x y => match vs x, vs y with
    | none, some (.witness o _) => vs.put x (wit o.copy false)
    | _, _ => vs
  | .assignWitness x y => match vs x, vs y with
    | some (.witness s e), some (.witness o _) => if x = y then vs else vs.put x (wit (s.assign o) e)
    | _, _ => vs
  | .pushItem x data => match vs x with
    | some (.witness s e) => match s.push data with
      | .ok (s, _) => vs.put x (wit s e)
      | .ub => vs
    | _ => vs
  | .pushItemScript x y => match vs x, vs y with
    | some (.witness s e), some (.script o) => match s.pushScript o with
      | .ok (s, _) => vs.put x (wit s e)
      | .ub => vs
    | _, _ => vs
  | .clearWitness x => match vs x with
    | some (.witness s e) => vs.put x (wit s.clear e)
    | _ => vs
  | .parseWitness x bytes => match vs x with
    | some (.witness s e) => vs.put x (wit (s.fromStream ⟨bytes, false⟩).1 e)
    | _ => vs
  | .destroy x => vs.put x none

def run : List Op → Vals → Vals
  | [], vs => vs
  | op :: ops, vs => run ops (vs.step op)

/-- The script variable `x`, if there is one, is not in the middle of a length prefix: its block is as large as its length says. -/
def Fits (vs : Vals) (x : Nat) : Prop := ∀ v, vs x = some (.script v) → v.Fits

/-- No variable has a size near the limits of the machine. -/
def Small (vs : Vals) : Prop := (∀ x v, vs x = some (.script v) → v.scriptLen < 2 ^ 62) ∧ ∀ x v e, vs x = some (.witness v e) → v.arr.length < 2 ^ 63

end Vals

/-- What a program must respect: scripts are not copied or changed in the middle of a length prefix, parsing does not leave the
defined behaviour (Props: prefixes 0xff), and no witness is destroyed which has held bytes and holds none. -/
def Allowed (vs : Vals) : Op → Prop
  | .copyScript _ y => vs.Fits y
  | .assignScript x y => vs.Fits x ∧ vs.Fits y
  | .pushByte x _ => vs.Fits x
  | .pushData x _ => vs.Fits x
  | .pushScript x y => vs.Fits x ∧ vs.Fits y
  | .clearScript x => vs.Fits x
  | .parseScript x bytes => ∀ v, vs x = some (.script v) → (v.fromStream ⟨bytes, false⟩).1.status ≠ .ub
  | .pushItemScript _ y => vs.Fits y
  | .parseWitness x bytes => ∀ v e, vs x = some (.witness v e) → (v.fromStream ⟨bytes, false⟩).1.status ≠ .ub
  | .destroy x => ∀ v e, vs x = some (.witness v e) → ¬ (v.arr = [] ∧ e = true)
  | _ => True

/-- Every statement of the program respects this in the state it is executed in. -/
def AllAllowed : List Op → Vals → Prop
  | [], vs => vs.Small
  | op :: ops, vs => vs.Small ∧ Allowed vs op ∧ AllAllowed ops (vs.step op)

/-- A statement which leaves no block without an owner: no push of nothing, no parsing that fails or stops before the end. -/
def Neat (vs : Vals) : Op → Prop
  | .ofBuffer _ data => data ≠ []
  | .pushData _ data => data ≠ []
  | .parseScript x bytes => ∀ v, vs x = some (.script v) → v.status = .done ∧ (v.fromStream ⟨bytes, false⟩).1.status = .done
  | _ => True

def AllNeat : List Op → Vals → Prop
  | [], _ => True
  | op :: ops, vs => Neat vs op ∧ AllNeat ops (vs.step op)

/-- Blocks lost by a statement: one when a script is pushed onto a script. -/
def losses (vs : Vals) : Op → Nat
  | .pushScript x y => match vs x, vs y with
    | some (.script _), some (.script _) => 1
    | _, _ => 0
  | _ => 0

def allLosses : List Op → Vals → Nat
  | [], _ => 0
  | op :: ops, vs => losses vs op + allLosses ops (vs.step op)

end UB.Spec

namespace UB.World

/-- What can be read from a variable: the bytes at its address. -/
def contents (W : World) (x : Nat) : C Bytes := match W.objs x with
  | some (.script o) => W.heap.read o.ptr 0 o.scriptLen
  | some (.witness o) => W.heap.read o.ptr 0 o.witnessLen
  | none => .ub

end UB.World
