import Verif.Model.HeapPSBT

/-! # Programs with several `PSBT` variables

A program is a sequence of the statements a user of PSBT.cpp writes: construct, copy, assign, parse, destroy. A statement about a variable
that does not exist is skipped; so is the construction of a variable that exists. -/

namespace UB

/-- The variables of a program and the heap. -/
structure BWorld where
  heap : Heap
  objs : Nat → Option HPSBT

/-- The statements, with the members of PSBT.cpp they call. -/
inductive BOp where
  /-- `PSBT x;` (PSBT.h:79) -/
  | new (x : Nat)
  /-- `PSBT x = y;` (PSBT.cpp:530) -/
  | copy (x y : Nat)
  /-- `x = y;` (PSBT.cpp:740) -/
  | assign (x y : Nat)
  /-- `n = s.parse(&x);` which calls `x.from_stream(&s)` (PSBT.cpp:88); `junk` is what memory that is not initialised contains -/
  | parse (x : Nat) (junk : Nat → Bytes) (s : PStream)
  /-- the end of the lifetime of `x` (PSBT.cpp:569) -/
  | destroy (x : Nat)

/-- What parsing tells: the returned number, the stream afterwards, `getStatus()`. -/
structure BOut where
  returned : Nat
  stream : PStream
  status : Status
deriving DecidableEq, Repr

namespace BWorld

/-- No variables, nothing allocated. -/
def init (denies : Nat → Nat → Bool) : BWorld := ⟨⟨fun _ => none, 0, denies⟩, fun _ => none⟩

def put (W : BWorld) (x : Nat) (o : Option HPSBT) (h : Heap) : BWorld := ⟨h, fun y => if y = x then o else W.objs y⟩

/-- One statement. -/
def step (W : BWorld) : BOp → C (BWorld × Option BOut)
  | .new x => match W.objs x with
    | none => .ok (W.put x (some {}) W.heap, none)
    | some _ => .ok (W, none)
  | .copy x y => match W.objs x, W.objs y with
    | none, some o => do
      let (o, h) ← o.copy W.heap
      return (W.put x (some o) h, none)
    | _, _ => .ok (W, none)
  | .assign x y =>
    if x = y then .ok (W, none)
    else match W.objs x, W.objs y with
      | some self, some o => do
        let (o, h) ← self.assign o W.heap
        return (W.put x (some o) h, none)
      | _, _ => .ok (W, none)
  | .parse x junk s => match W.objs x with
    | some o => do
      let ((o, n, s), h) ← o.fromStream junk s W.heap
      return (W.put x (some o) h, some ⟨n, s, o.status⟩)
    | none => .ok (W, none)
  | .destroy x => match W.objs x with
    | some o => do
      let (_, h) ← o.destroy W.heap
      return (W.put x none h, none)
    | none => .ok (W, none)

/-- A sequence of statements, with what the calls of `parse` tell. -/
def run : List BOp → BWorld → C (BWorld × List (Option BOut))
  | [], W => .ok (W, [])
  | op :: ops, W => do
    let (W, r) ← W.step op
    let (W, rs) ← run ops W
    return (W, r :: rs)

end BWorld

end UB
