import Verif.Spec.Curve
import Mathlib.Tactic.LinearCombination
import Mathlib.Tactic.FieldSimp

/-
The group law of secp256k1 in coordinates.
-/

namespace UB.Spec
open WeierstrassCurve

theorem two_ne : (2 : Fp) ≠ 0 := by
  intro h
  have h2 : ((2 : Nat) : Fp) = 0 := by exact_mod_cast h
  rw [ZMod.natCast_eq_zero_iff] at h2
  have := Nat.le_of_dvd (by norm_num) h2
  revert this
  decide +kernel

theorem three_ne : (3 : Fp) ≠ 0 := by
  intro h
  have h2 : ((3 : Nat) : Fp) = 0 := by exact_mod_cast h
  rw [ZMod.natCast_eq_zero_iff] at h2
  have := Nat.le_of_dvd (by norm_num) h2
  revert this
  decide +kernel

theorem seven_ne : (7 : Fp) ≠ 0 := by
  intro h
  have h2 : ((7 : Nat) : Fp) = 0 := by exact_mod_cast h
  rw [ZMod.natCast_eq_zero_iff] at h2
  have := Nat.le_of_dvd (by norm_num) h2
  revert this
  decide +kernel

theorem equation_iff (x y : Fp) : curve.Equation x y ↔ y ^ 2 = x ^ 3 + 7 := by
  rw [Affine.equation_iff]
  simp [curve]

theorem nonsingular_iff (x y : Fp) : curve.Nonsingular x y ↔ y ^ 2 = x ^ 3 + 7 := by
  rw [Affine.nonsingular_iff, equation_iff]
  refine ⟨fun h => h.1, fun h => ⟨h, ?_⟩⟩
  simp only [curve]
  by_contra hc
  push Not at hc
  obtain ⟨h1, h2⟩ := hc
  have hy : y = 0 := by
    have : 2 * y = 0 := by linear_combination h2
    exact (mul_eq_zero.mp this).resolve_left two_ne
  have hx : x = 0 := by
    have : 3 * x ^ 2 = 0 := by linear_combination -h1
    exact pow_eq_zero_iff (two_ne_zero) |>.mp ((mul_eq_zero.mp this).resolve_left three_ne)
  rw [hx, hy] at h
  apply seven_ne
  linear_combination -h

theorem negY_eq (x y : Fp) : curve.negY x y = -y := by simp [Affine.negY, curve]

theorem At.eqn {P : Pt} {x y : Fp} (h : At P x y) : y ^ 2 = x ^ 3 + 7 := by
  obtain ⟨h, -⟩ := h
  exact (nonsingular_iff x y).mp h

theorem at_exists {x y : Fp} (h : y ^ 2 = x ^ 3 + 7) : ∃ P : Pt, At P x y :=
  ⟨.some x y ((nonsingular_iff x y).mpr h), _, rfl⟩

theorem At.ne_zero {P : Pt} {x y : Fp} (h : At P x y) : P ≠ 0 := by
  obtain ⟨h, rfl⟩ := h
  exact Affine.Point.some_ne_zero h

theorem exists_at {P : Pt} (h : P ≠ 0) : ∃ x y, At P x y := by
  cases P with
  | zero => exact absurd rfl h
  | some x y h' => exact ⟨x, y, h', rfl⟩

theorem At.inj {P Q : Pt} {x y : Fp} (h1 : At P x y) (h2 : At Q x y) : P = Q := by
  obtain ⟨_, rfl⟩ := h1
  obtain ⟨_, rfl⟩ := h2
  rfl

theorem At.coords {P : Pt} {x y x' y' : Fp} (h1 : At P x y) (h2 : At P x' y') : x = x' ∧ y = y' := by
  obtain ⟨_, rfl⟩ := h1
  obtain ⟨_, h⟩ := h2
  injection h with h3 h4
  exact ⟨h3, h4⟩

theorem At.neg {P : Pt} {x y : Fp} (h : At P x y) : At (-P) x (-y) := by
  obtain ⟨h, rfl⟩ := h
  have h' : curve.Nonsingular x (-y) := by
    rw [nonsingular_iff] at h ⊢
    linear_combination h
  refine ⟨h', ?_⟩
  rw [Affine.Point.neg_some]
  congr 1
  exact negY_eq x y

theorem At.neg_y {P Q : Pt} {x y : Fp} (h : At P x y) (h' : At Q x (-y)) : Q = -P := h'.inj h.neg

/-- Two points with the same x are equal or opposite. -/
theorem At.same_x {P Q : Pt} {x y y' : Fp} (h : At P x y) (h' : At Q x y') : Q = P ∨ Q = -P := by
  have e : (y' - y) * (y' + y) = 0 := by linear_combination h'.eqn - h.eqn
  rcases mul_eq_zero.mp e with e | e
  · left
    rw [sub_eq_zero] at e
    exact (e ▸ h').inj h
  · right
    have : y' = -y := by linear_combination e
    exact (this ▸ h').inj h.neg

/-- The chord. -/
theorem At.add {P Q : Pt} {x1 y1 x2 y2 l x3 y3 : Fp} (h1 : At P x1 y1) (h2 : At Q x2 y2) (hx : x1 ≠ x2)
    (hl : l * (x1 - x2) = y1 - y2) (hx3 : x3 = l ^ 2 - x1 - x2) (hy3 : y3 = l * (x1 - x3) - y1) : At (P + Q) x3 y3 := by
  obtain ⟨h1, rfl⟩ := h1
  obtain ⟨h2, rfl⟩ := h2
  have hs : curve.slope x1 x2 y1 y2 = l := by
    rw [Affine.slope_of_X_ne hx, div_eq_iff (sub_ne_zero.mpr hx), hl]
  have hX : curve.addX x1 x2 (curve.slope x1 x2 y1 y2) = x3 := by
    rw [hs, hx3, Affine.addX]
    simp [curve]
  have hY : curve.addY x1 x2 y1 (curve.slope x1 x2 y1 y2) = y3 := by
    rw [Affine.addY, Affine.negAddY, hX, hs, negY_eq, hy3]
    ring
  have hn := Affine.nonsingular_add h1 h2 (fun hc => hx hc.1)
  rw [hX, hY] at hn
  refine ⟨hn, ?_⟩
  rw [Affine.Point.add_of_X_ne hx]
  congr 1

/-- The tangent. -/
theorem At.double {P : Pt} {x y l x3 y3 : Fp} (h : At P x y) (hy : y ≠ 0) (hl : l * (2 * y) = 3 * x ^ 2)
    (hx3 : x3 = l ^ 2 - 2 * x) (hy3 : y3 = l * (x - x3) - y) : At (P + P) x3 y3 := by
  obtain ⟨h, rfl⟩ := h
  have hne : y ≠ curve.negY x y := by
    rw [negY_eq]
    intro hc
    have : 2 * y = 0 := by linear_combination hc
    exact hy ((mul_eq_zero.mp this).resolve_left two_ne)
  have hs : curve.slope x x y y = l := by
    rw [Affine.slope_of_Y_ne rfl hne, negY_eq]
    have : (3 * x ^ 2 + 2 * curve.a₂ * x + curve.a₄ - curve.a₁ * y) = 3 * x ^ 2 := by simp [curve]
    rw [this, div_eq_iff (by rw [sub_neg_eq_add, ← two_mul]; exact mul_ne_zero two_ne hy), ← hl]
    ring
  have hX : curve.addX x x (curve.slope x x y y) = x3 := by
    rw [hs, hx3, Affine.addX]
    simp only [curve]
    ring
  have hY : curve.addY x x y (curve.slope x x y y) = y3 := by
    rw [Affine.addY, Affine.negAddY, hX, hs, negY_eq, hy3]
    ring
  have hn := Affine.nonsingular_add h h (fun hc => hne hc.2)
  rw [hX, hY] at hn
  refine ⟨hn, ?_⟩
  rw [Affine.Point.add_self_of_Y_ne hne]
  congr 1

end UB.Spec
