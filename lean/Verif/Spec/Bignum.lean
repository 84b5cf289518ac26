import Verif.Model.Base

/-
What nine 30-bit limbs stand for (bignum.h:33-37).
-/

namespace UB.Spec

/-- Value of a list of limbs, lowest first, in base 2^30. -/
def limbValue : List UInt32 → Nat
  | [] => 0
  | x :: xs => x.toNat + 2 ^ 30 * limbValue xs

/-- Nine limbs below 2^30. -/
structure Normal (a : List UInt32) : Prop where
  len : a.length = 9
  small : ∀ x ∈ a, x.toNat < 2 ^ 30

/-- The moduli the arithmetic is made for: between 2^256 - 2^224 and 2^256, in normal form. -/
structure Modulus (p : List UInt32) : Prop where
  normal : Normal p
  low : 2 ^ 256 - 2 ^ 224 ≤ limbValue p
  high : limbValue p < 2 ^ 256

end UB.Spec
