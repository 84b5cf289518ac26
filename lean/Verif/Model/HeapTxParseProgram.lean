import Verif.Model.HeapTxProgram

/-! # Programs that also parse

The statements of Model/HeapTxProgram.lean and `from_stream`, called with a piece of the data at a time. -/

namespace UB

inductive POp where
  | op (o : TOp)
  /-- `n = s.parse(&x);` which calls `x.from_stream(&s)` (Transaction.cpp:72, 145, 352) -/
  | parse (x : Nat) (s : PStream)

/-- What parsing tells: the returned number, the stream afterwards, `getStatus()`. -/
structure POut where
  returned : Nat
  stream : PStream
  status : Status
deriving DecidableEq, Repr

namespace TWorld

/-- One statement; parsing into a variable that does not exist is skipped. -/
def pstep (W : TWorld) : POp → C (TWorld × Option POut)
  | .op o => do
    let W ← W.step o
    return (W, none)
  | .parse x s => match W.objs x with
    | some (.txIn o) => do
      let (o, n, s, h) ← o.fromStream s W.heap
      return (W.put x (some (.txIn o)) h, some ⟨n, s, o.status⟩)
    | some (.txOut o) => do
      let (o, n, s, h) ← o.fromStream s W.heap
      return (W.put x (some (.txOut o)) h, some ⟨n, s, o.status⟩)
    | some (.tx o) => do
      let (o, n, s, h) ← o.fromStream s W.heap
      return (W.put x (some (.tx o)) h, some ⟨n, s, o.status⟩)
    | none => .ok (W, none)

/-- A sequence of statements, with what the calls of `parse` tell. -/
def prun : List POp → TWorld → C (TWorld × List (Option POut))
  | [], W => .ok (W, [])
  | op :: ops, W => do
    let (W, r) ← W.pstep op
    let (W, rs) ← prun ops W
    return (W, r :: rs)

end TWorld

end UB
