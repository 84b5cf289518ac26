/-
Common vocabulary of the model: bytes, buffers and the outcome type that
separates defined results from undefined behaviour.
-/

namespace UB

/-- A byte buffer, or a C string without its terminating NUL. -/
abbrev Bytes := List UInt8

/-- Outcome of a modelled C/C++ function: a defined result, or undefined behaviour
(out-of-bounds access, over-wide shift).  Nothing is claimed about what follows `ub`. -/
inductive C (α : Type) where
  | ok (a : α)
  | ub
deriving DecidableEq, Repr

namespace C

def bind {α β : Type} : C α → (α → C β) → C β
  | ok a, f => f a
  | ub, _ => ub

instance : Monad C where
  pure := ok
  bind := C.bind

@[simp] theorem bind_ok {α β : Type} (a : α) (f : α → C β) : (C.ok a >>= f) = f a := rfl
@[simp] theorem bind_ub {α β : Type} (f : α → C β) : ((C.ub : C α) >>= f) = C.ub := rfl
@[simp] theorem pure_eq {α : Type} (a : α) : (pure a : C α) = C.ok a := rfl

end C

/-- `n` zero bytes (the effect of `memzero`/`calloc`). -/
def zeros (n : Nat) : Bytes := List.replicate n 0

@[simp] theorem length_zeros (n : Nat) : (zeros n).length = n := by simp [zeros]

/-- `memcpy(buf + off, data, data.length)`; out of bounds is `ub`. -/
def store (buf : Bytes) (off : Nat) (data : Bytes) : C Bytes :=
  if off + data.length ≤ buf.length then
    .ok (buf.take off ++ data ++ buf.drop (off + data.length))
  else .ub

/-- `memcpy(dst, buf + off, n)` seen as the bytes obtained; out of bounds is `ub`. -/
def load (buf : Bytes) (off n : Nat) : C Bytes :=
  if off + n ≤ buf.length then .ok ((buf.drop off).take n) else .ub

/-- ASCII text as a C string. -/
def str (s : String) : Bytes := s.toList.map fun c => UInt8.ofNat c.toNat

end UB
