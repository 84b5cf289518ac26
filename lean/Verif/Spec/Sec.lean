import Verif.Spec.Curve
import Verif.Spec.Sha2

/-
SEC 1 (version 2.0), section 2.3.3: points as byte strings.
-/

namespace UB.Spec

/-- The encoding of the affine point (x, y). -/
def secBytes (compressed : Bool) (x y : Nat) : Bytes :=
  if compressed then (if y % 2 = 1 then 0x03 else 0x02) :: beBytes 32 x
  else 0x04 :: (beBytes 32 x ++ beBytes 32 y)

/-- `b` is the compressed or uncompressed encoding of the point `P`, which is not the point at infinity. -/
def IsSec (b : Bytes) (compressed : Bool) (P : Pt) : Prop := ∃ x y : Fp, At P x y ∧ b = secBytes compressed x.val y.val

end UB.Spec
