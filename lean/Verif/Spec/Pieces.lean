import Verif.Model.Transaction
import Verif.Lemmas.ScriptParse

/-
Feeding an object piece by piece, as a caller does who receives data from a network or a serial line.
-/

namespace UB.Spec

/-- `while(status == PARSING_INCOMPLETE) object.parse(next piece)`: the final object and the number of
bytes the calls reported as consumed. -/
def feedPieces {α : Type} (parse : α → PStream → α × Nat × PStream) (status : α → Status) : α → List Bytes → α × Nat
  | x, [] => (x, 0)
  | x, c :: cs =>
    let y := parse x (.of c)
    if status y.1 = .incomplete then
      let z := feedPieces parse status y.1 cs
      (z.1, y.2.1 + z.2)
    else (y.1, y.2.1)

/-- The same for a parser whose call may have no outcome. -/
def feedPiecesOpt {α : Type} (parse : α → PStream → Option (α × Nat × PStream)) (status : α → Status) : α → List Bytes → Option (α × Nat)
  | x, [] => some (x, 0)
  | x, c :: cs =>
    match parse x (.of c) with
    | none => none
    | some y =>
      if status y.1 = .incomplete then
        match feedPiecesOpt parse status y.1 cs with
        | none => none
        | some z => some (z.1, y.2.1 + z.2)
      else some (y.1, y.2.1)

/-- Two ways of parsing ended in the same way. -/
structure SameParse (stA stB : Status) (nA nB : Nat) (same : Prop) : Prop where
  done : stA = .done ↔ stB = .done
  incomplete : stA = .incomplete ↔ stB = .incomplete
  content : stA = .done → same ∧ nA = nB

end UB.Spec
