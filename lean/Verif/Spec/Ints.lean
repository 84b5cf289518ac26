import Verif.Spec.Conversion

/-
Specification of fixed-width and variable-length integers.
-/

namespace UB.Spec

/-- The `k` low bytes of `n`, least significant first. -/
def leBytes : Nat → Nat → Bytes
  | 0, _ => []
  | k + 1, n => UInt8.ofNat (n % 256) :: leBytes k (n / 256)

/-- Bitcoin "CompactSize" encoding. -/
def compactSize (n : Nat) : Bytes :=
  if n < 253 then [UInt8.ofNat n]
  else if n < 65536 then 0xfd :: leBytes 2 n
  else if n < 4294967296 then 0xfe :: leBytes 4 n
  else 0xff :: leBytes 8 n

end UB.Spec
