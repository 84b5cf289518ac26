import Mathlib.Data.Nat.Digits.Defs
import Verif.Spec.Conversion

/-
Specification of the base-58 and base-43 text of a byte string.
-/

namespace UB.Spec

/-- Number of leading zero bytes. -/
def leadingZeros (a : Bytes) : Nat := (a.takeWhile (· == 0)).length

/-- One zero digit per leading zero byte, then the minimal numeral (most significant digit first) of
the big-endian value, written in the given alphabet. -/
def numeralText (alphabet : Bytes) (a : Bytes) : Bytes :=
  List.replicate (leadingZeros a) (alphabet.getD 0 0) ++
    (Nat.digits alphabet.length (beValue a)).reverse.map fun d => alphabet.getD d 0

/-- Base-58 text of a byte string. -/
def base58Text : Bytes → Bytes :=
  numeralText (str "123456789ABCDEFGHJKLMNPQRSTUVWXYZabcdefghijkmnopqrstuvwxyz")

/-- Base-43 text of a byte string. -/
def base43Text : Bytes → Bytes :=
  numeralText (str "0123456789ABCDEFGHIJKLMNOPQRSTUVWXYZ$*+-./:")

end UB.Spec
