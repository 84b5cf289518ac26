import Verif.Model.Heap

/-! # Programs with several `Script` and `Witness` variables

A program is a sequence of the statements a user of Script.cpp writes: construct, copy, assign, push, clear, parse, destroy. Return values
and what is left of a parsed stream are dropped. A statement about a variable that does not exist, or is of the other class, would not
compile and is skipped here; so is the construction of a variable that exists. -/

namespace UB

/-- A variable. -/
inductive Obj where
  | script (o : HScript)
  | witness (o : HWitness)
deriving DecidableEq, Repr

/-- The variables of a program and the heap. -/
structure World where
  heap : Heap
  objs : Nat → Option Obj

/-- The statements, with the members of Script.cpp they call. -/
inductive Op where
  /-- `Script x;` (Bitcoin.h:486) -/
  | newScript (x : Nat)
  /-- `Script x(data, len);` (Script.cpp:136) -/
  | ofBuffer (x : Nat) (data : Bytes)
  /-- `Script x = y;` (Script.cpp:495) -/
  | copyScript (x y : Nat)
  /-- `x = y;` (Script.cpp:483) -/
  | assignScript (x y : Nat)
  /-- `x.push(code);` (Script.cpp:420) -/
  | pushByte (x : Nat) (code : UInt8)
  /-- `x.push(data, len);` (Script.cpp:438) -/
  | pushData (x : Nat) (data : Bytes)
  /-- `x.push(y);` (Script.cpp:470) -/
  | pushScript (x y : Nat)
  /-- `x.clear();` (Script.cpp:256) -/
  | clearScript (x : Nat)
  /-- `x.parse(bytes, len);` (Script.cpp:264) -/
  | parseScript (x : Nat) (bytes : Bytes)
  /-- `Witness x;` (Bitcoin.h:568) -/
  | newWitness (x : Nat)
  /-- `Witness x = y;` (Script.cpp:694) -/
  | copyWitness (x y : Nat)
  /-- `x = y;` (Script.cpp:704) -/
  | assignWitness (x y : Nat)
  /-- `x.push(data, len);` (Script.cpp:651) -/
  | pushItem (x : Nat) (data : Bytes)
  /-- `x.push(y);` for a script `y` (Script.cpp:683) -/
  | pushItemScript (x y : Nat)
  /-- `x.clear();` (Script.cpp:507) -/
  | clearWitness (x : Nat)
  /-- `x.parse(bytes, len);` (Script.cpp:535) -/
  | parseWitness (x : Nat) (bytes : Bytes)
  /-- the end of the lifetime of `x` (Bitcoin.h:503, 572) -/
  | destroy (x : Nat)

namespace World

/-- A program before its first statement, on a machine with the given allocator. -/
def init (denies : Nat → Nat → Bool) : World := ⟨⟨fun _ => none, 0, denies⟩, fun _ => none⟩

/-- The variable `x` and the heap after a statement. -/
def put (W : World) (x : Nat) (o : Option Obj) (h : Heap) : World := ⟨h, fun y => if y = x then o else W.objs y⟩

/-- One statement. -/
def step (W : World) : Op → C World
  | .newScript x => match W.objs x with
    | none => .ok (W.put x (some (.script {})) W.heap)
    | _ => .ok W
  | .ofBuffer x data => match W.objs x with
    | none => do
      let (o, h) ← HScript.ofBuffer data W.heap
      return W.put x (some (.script o)) h
    | _ => .ok W
  | .copyScript x y => match W.objs x, W.objs y with
    | none, some (.script o) => do
      let (o, h) ← o.copy W.heap
      return W.put x (some (.script o)) h
    | _, _ => .ok W
  | .assignScript x y => match W.objs x, W.objs y with
    | some (.script s), some (.script o) =>
      if x = y then .ok W
      else do
        let (s, h) ← s.assign o W.heap
        return W.put x (some (.script s)) h
    | _, _ => .ok W
  | .pushByte x code => match W.objs x with
    | some (.script s) => do
      let (s, _, h) ← s.pushByte code W.heap
      return W.put x (some (.script s)) h
    | _ => .ok W
  | .pushData x data => match W.objs x with
    | some (.script s) => do
      let (s, _, h) ← s.pushData data W.heap
      return W.put x (some (.script s)) h
    | _ => .ok W
  | .pushScript x y => match W.objs x, W.objs y with
    | some (.script s), some (.script o) => do
      let (s, _, h) ← s.pushScript o W.heap
      return W.put x (some (.script s)) h
    | _, _ => .ok W
  | .clearScript x => match W.objs x with
    | some (.script s) => do
      let (s, h) ← s.clear W.heap
      return W.put x (some (.script s)) h
    | _ => .ok W
  | .parseScript x bytes => match W.objs x with
    | some (.script s) => do
      let (s, _, _, h) ← s.fromStream ⟨bytes, false⟩ W.heap
      return W.put x (some (.script s)) h
    | _ => .ok W
  | .newWitness x => match W.objs x with
    | none => .ok (W.put x (some (.witness {})) W.heap)
    | _ => .ok W
  | .copyWitness x y => match W.objs x, W.objs y with
    | none, some (.witness o) => do
      let (o, h) ← o.copy W.heap
      return W.put x (some (.witness o)) h
    | _, _ => .ok W
  | .assignWitness x y => match W.objs x, W.objs y with
    | some (.witness s), some (.witness o) =>
      if x = y then .ok W
      else do
        let (s, h) ← s.assign o W.heap
        return W.put x (some (.witness s)) h
    | _, _ => .ok W
  | .pushItem x data => match W.objs x with
    | some (.witness s) => do
      let (s, _, h) ← s.push data W.heap
      return W.put x (some (.witness s)) h
    | _ => .ok W
  | .pushItemScript x y => match W.objs x, W.objs y with
    | some (.witness s), some (.script o) => do
      let (s, _, h) ← s.pushScript o W.heap
      return W.put x (some (.witness s)) h
    | _, _ => .ok W
  | .clearWitness x => match W.objs x with
    | some (.witness s) => do
      let (s, h) ← s.clear W.heap
      return W.put x (some (.witness s)) h
    | _ => .ok W
  | .parseWitness x bytes => match W.objs x with
    | some (.witness s) => do
      let (s, _, _, h) ← s.fromStream ⟨bytes, false⟩ W.heap
      return W.put x (some (.witness s)) h
    | _ => .ok W
  | .destroy x => match W.objs x with
    | some (.script s) => do
      let h ← s.destroy W.heap
      return W.put x none h
    | some (.witness s) => do
      let h ← s.destroy W.heap
      return W.put x none h
    | none => .ok W

/-- A sequence of statements. -/
def run : List Op → World → C World
  | [], W => .ok W
  | op :: ops, W => do
    let W ← W.step op
    run ops W

end World

end UB
