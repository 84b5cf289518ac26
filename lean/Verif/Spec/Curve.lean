import Mathlib.AlgebraicGeometry.EllipticCurve.Affine.Point
import Mathlib.Data.ZMod.Basic
import Mathlib.Algebra.Field.ZMod
import Verif.Lemmas.Primes
import Verif.Spec.Bignum

/-
The group of the curve y² = x³ + 7 over the field with `secpP` elements, as defined in Mathlib
(`WeierstrassCurve.Affine.Point` with its group law by chords and tangents).
-/

namespace UB.Spec

instance fact_secpP : Fact secpP.Prime := ⟨prime_secpP⟩
instance fact_secpN : Fact secpN.Prime := ⟨prime_secpN⟩

/-- The field of the coordinates. -/
abbrev Fp := ZMod secpP

/-- The scalars. -/
abbrev Fn := ZMod secpN

/-- secp256k1: y² = x³ + 7. -/
def curve : WeierstrassCurve.Affine Fp := ⟨0, 0, 0, 0, 7⟩

/-- The points of secp256k1, with the point at infinity as 0. -/
abbrev Pt := curve.Point

/-- `P` is the point with the affine coordinates `x`, `y`. -/
def At (P : Pt) (x y : Fp) : Prop := ∃ h : curve.Nonsingular x y, P = .some x y h

/-- The two limb arrays hold the affine coordinates of `P`, fully reduced; both hold 0 if `P` is the point at infinity. -/
def IsPoint (x y : List UInt32) (P : Pt) : Prop :=
  Normal x ∧ Normal y ∧ limbValue x < secpP ∧ limbValue y < secpP ∧
    ((P = 0 ∧ limbValue x = 0 ∧ limbValue y = 0) ∨ At P (limbValue x : Fp) (limbValue y : Fp))

end UB.Spec
