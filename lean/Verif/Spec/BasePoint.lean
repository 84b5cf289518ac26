import Verif.Lemmas.Curve

/-
The base point of secp256k1 (SEC 2, section 2.4.1).
-/

namespace UB.Spec

theorem base_eqn : ((secpGy : Nat) : Fp) ^ 2 = ((secpGx : Nat) : Fp) ^ 3 + 7 := by
  have h : secpGy ^ 2 % secpP = (secpGx ^ 3 + 7) % secpP := by decide +kernel
  have := (ZMod.natCast_eq_natCast_iff' _ _ _).mpr h
  push_cast at this
  exact this

/-- The base point G. -/
def G : Pt := .some ((secpGx : Nat) : Fp) ((secpGy : Nat) : Fp) ((nonsingular_iff _ _).mpr base_eqn)

end UB.Spec
