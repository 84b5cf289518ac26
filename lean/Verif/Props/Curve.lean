import Verif.Lemmas.CurveInfinity

/-
Claim C50: the point operations of ecdsa.c are those of the group of secp256k1.
The group is Mathlib's `WeierstrassCurve.Affine.Point` of y² = x³ + 7 (Spec/Curve.lean); `IsPoint x y P` says that the limbs `x` and
`y` hold the reduced affine coordinates of `P` (both 0 for the point at infinity).
-/

namespace UB
open Spec BN

attribute [local irreducible] secpP secpN

/-- The limbs of the base point (secp256k1.h) are the base point. -/
theorem isPoint_base : IsPoint Secp.gx Secp.gy G :=
  ⟨normal_gx, normal_gy, by rw [value_gx]; decide +kernel, by rw [value_gy]; decide +kernel, .inr (by rw [value_gx, value_gy]; exact at_G)⟩

/-- `point_add` adds any two points: different, equal, opposite or at infinity. -/
theorem C50_add (c d : CurvePoint) (P Q : Pt) (hP : IsPoint c.x c.y P) (hQ : IsPoint d.x d.y Q) :
    ∃ e, c.add d = .ok e ∧ IsPoint e.x e.y (P + Q) := point_add_spec hP hQ

/-- `point_double` doubles any point. -/
theorem C50_double (c : CurvePoint) (P : Pt) (hP : IsPoint c.x c.y P) : ∃ e, c.double = .ok e ∧ IsPoint e.x e.y (P + P) := point_double_spec hP

/-- `point_multiply` multiplies any point but infinity with any scalar below the order, whatever number the randomization of the
Jacobian coordinates draws. -/
theorem C50_multiply_partial (k : BN) (hk : Normal k) (hl : limbValue k < secpN) (c : CurvePoint) (P : Pt) (hP : IsPoint c.x c.y P) (h0 : P ≠ 0)
    (z : BN) (hz : Normal z) (hz0 : 0 < limbValue z) (hzl : limbValue z < secpP) :
    ∃ r, pointMultiply k c z = .ok r ∧ IsPoint r.x r.y (limbValue k • P) := pointMultiply_spec k hk hl hP h0 z hz hz0 hzl

/-- The missing case of `C50_multiply_partial` is a defect: multiplying the point at infinity with any scalar but 0 ends in the
inversion of 0 (out of bounds access), not in the point at infinity. -/
theorem C50_multiply_infinity_undefined (k : BN) (hk : Normal k) (hl : limbValue k < secpN) (h0 : limbValue k ≠ 0)
    (z : BN) (hz : Normal z) (hzl : limbValue z < secpP) : pointMultiply k CurvePoint.infinity z = .ub :=
  pointMultiply_infinity k hk hl h0 z hz hzl

/-- `scalar_multiply` multiplies the base point with any scalar below the order.  (The table of 512 precomputed points it uses is
part of the model; this theorem implies that all of them are right.) -/
theorem C50_multiply_base (k : BN) (hk : Normal k) (hl : limbValue k < secpN)
    (z : BN) (hz : Normal z) (hz0 : 0 < limbValue z) (hzl : limbValue z < secpP) :
    ∃ r, scalarMultiply k z = .ok r ∧ IsPoint r.x r.y (limbValue k • G) := scalarMultiply_spec k hk hl z hz hz0 hzl

/-- A scalar that is not below the order fails the assertion in both multiplications. -/
theorem C50_multiply_range (k : BN) (hk : Normal k) (hl : secpN ≤ limbValue k) (c : CurvePoint) (z : BN) :
    pointMultiply k c z = .ub ∧ scalarMultiply k z = .ub := by
  have h : BN.isLess k Secp.order = false := by
    rw [Bool.eq_false_iff, Ne, isLess_iff hk modulus_order.normal, value_order]
    exact Nat.not_lt.mpr hl
  unfold pointMultiply scalarMultiply
  simp only [h]
  exact ⟨rfl, rfl⟩

/-- The entry `cp[i][j]` of the precomputed table is (2j+1)·16^i times the base point. -/
theorem C50_table (i j : Nat) (hi : i < 64) (hj : j < 8) :
    ∃ row c, Secp.cp[i]? = some row ∧ row[j]? = some c ∧ IsPoint c.x c.y (((2 * j + 1) * 16 ^ i) • G) := cp_at hi hj

/-- The number of points is the order in secp256k1.h, a prime: every point other than infinity generates the group.  So `order` is the
right modulus for scalars of every point the library can read. -/
theorem C50_group_order (P : Pt) (h : P ≠ 0) (k : Nat) : k • P = 0 ↔ limbValue Secp.order ∣ k := by
  rw [value_order, ← addOrderOf_point h]
  exact addOrderOf_dvd_iff_nsmul_eq_zero.symm

/-- The limbs of a point are unique: two results stand for the same point exactly if they are the same limbs. -/
theorem C50_limbs_unique (c d : CurvePoint) (P Q : Pt) (hP : IsPoint c.x c.y P) (hQ : IsPoint d.x d.y Q) : c = d ↔ P = Q := by
  refine ⟨?_, fun h => isPoint_unique hP (h ▸ hQ)⟩
  rintro rfl
  obtain ⟨-, -, -, -, h⟩ := hP
  obtain ⟨-, -, -, -, h'⟩ := hQ
  rcases h with ⟨rfl, hx, hy⟩ | h <;> rcases h' with ⟨rfl, hx', hy'⟩ | h'
  · rfl
  · exact absurd (by rw [hy, Nat.cast_zero]) h'.y_ne
  · exact absurd (by rw [hy', Nat.cast_zero]) h.y_ne
  · exact h.inj h'

/-! ### Cases -/

/-- G + G, as `point_add` is called with equal arguments. -/
example : ∃ e, CurvePoint.add ⟨Secp.gx, Secp.gy⟩ ⟨Secp.gx, Secp.gy⟩ = .ok e ∧ IsPoint e.x e.y (G + G) := C50_add _ _ _ _ isPoint_base isPoint_base

/-- G + infinity. -/
example : ∃ e, CurvePoint.add ⟨Secp.gx, Secp.gy⟩ CurvePoint.infinity = .ok e ∧ IsPoint e.x e.y (G + 0) :=
  C50_add _ _ _ _ isPoint_base isPoint_infinity

example : ∃ e, CurvePoint.double ⟨Secp.gx, Secp.gy⟩ = .ok e ∧ IsPoint e.x e.y (G + G) := C50_double _ _ isPoint_base

/-- The scalar may be the abscissa of the base point (it is below the order), the random number its ordinate. -/
example : ∃ r, pointMultiply Secp.gx ⟨Secp.gx, Secp.gy⟩ Secp.gy = .ok r ∧ IsPoint r.x r.y (limbValue Secp.gx • G) :=
  C50_multiply_partial _ normal_gx (by rw [value_gx]; decide +kernel) _ _ isPoint_base at_G.ne_zero _ normal_gy (by rw [value_gy]; decide +kernel) (by rw [value_gy]; decide +kernel)

example : pointMultiply Secp.gx CurvePoint.infinity Secp.gy = .ub :=
  C50_multiply_infinity_undefined _ normal_gx (by rw [value_gx]; decide +kernel) (by rw [value_gx]; decide +kernel) _ normal_gy (by rw [value_gy]; decide +kernel)

example : ∃ r, scalarMultiply Secp.gx Secp.gy = .ok r ∧ IsPoint r.x r.y (limbValue Secp.gx • G) :=
  C50_multiply_base _ normal_gx (by rw [value_gx]; decide +kernel) _ normal_gy (by rw [value_gy]; decide +kernel) (by rw [value_gy]; decide +kernel)

example : scalarMultiply Secp.order Secp.gy = .ub := (C50_multiply_range _ modulus_order.normal (by rw [value_order]) CurvePoint.infinity _).2

example : G ≠ 0 := at_G.ne_zero

end UB
