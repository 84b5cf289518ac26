import Verif.Model.ECKey

/-
src/Script.cpp:52-103: the quicksort of public keys.  `sortedmulti` (105-110) does not call it, nor does anything else.  The comparison is
a parameter (for keys: `ECPoint.le` below).  The bounds `low` and `high` of the code become `low` and `stop` = `high + 1`, as `high` may be -1;
int as a natural number.
-/

namespace UB
namespace KeySort

variable {α : Type}

/-- `array[i]`. -/
def get (a : List α) (i : Nat) : C α :=
  match a[i]? with
  | some x => .ok x
  | none => .ub

/-- Script.cpp:53-57 `swap(&array[i], &array[j])`. -/
def swap (a : List α) (i j : Nat) : C (List α) := do
  let x ← get a i
  let y ← get a j
  return (a.set i y).set j x

/-- Script.cpp:70-80: `n` more rounds of the loop; `i` is one more than in the code. -/
def scan (le : α → α → C Bool) (pivot : α) : Nat → Nat → Nat → List α → C (List α × Nat)
  | 0, _, i, a => return (a, i)
  | n + 1, j, i, a => do
    let x ← get a j
    if ← le x pivot then scan le pivot n (j + 1) (i + 1) (← swap a i j)
    else scan le pivot n (j + 1) i a

/-- Script.cpp:60-87 `partition`. -/
def partition (le : α → α → C Bool) (a : List α) (low stop : Nat) : C (List α × Nat) := do
  let pivot ← get a (stop - 1)
  let (a, i) ← scan le pivot (stop - 1 - low) low low a
  let a ← swap a i (stop - 1)
  return (a, i)

/-- Script.cpp:89-103 `quickSort`, with a bound for the depth of the recursion. -/
def quickSort (le : α → α → C Bool) : Nat → List α → Nat → Nat → C (List α)
  | 0, _, _, _ => .ub
  | fuel + 1, a, low, stop =>
    if low + 1 < stop then do
      let (a, pi) ← partition le a low stop
      let a ← quickSort le fuel a low pi
      quickSort le fuel a (pi + 1) stop
    else return a

end KeySort

/-- BitcoinCurve.h:95-97 `operator<=`: `!(*this > other)`, which is `!(other < *this)`. -/
def ECPoint.le (p q : ECPoint) : C Bool := do
  return !(← q.lt p)

end UB
