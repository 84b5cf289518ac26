import Mathlib.GroupTheory.Perm.Cycle.Type
import Mathlib.Algebra.Order.BigOperators.Group.Finset
import Verif.Spec.BasePoint
import Verif.Lemmas.CurveTable
import Verif.Lemmas.CurvePoints

/-
The table of multiples of the base point, and the order of the group: there are exactly `secpN` points, so every point times
`secpN` is 0.
-/

namespace UB
open Spec

theorem at_G : At G ((secpGx : Nat) : Fp) ((secpGy : Nat) : Fp) := ⟨_, rfl⟩

theorem cp_first : (cpCoords.getD 0 []).getD 0 (0, 0) = (secpGx, secpGy) := by decide +kernel

theorem cpCoords_length : cpCoords.length = 64 := by decide +kernel

theorem cpCoords_at {i j : Nat} (hi : i < 64) (hj : j < 8) : AtN (((2 * j + 1) * 16 ^ i) • G) ((cpCoords.getD i []).getD j (0, 0)) :=
  rowsCheck_sound cpCoords CurveData.doubles G (by rw [cp_first]; exact at_G) cp_checked i (by rw [cpCoords_length]; exact hi) j hj

/-- Every entry is normalized and below the prime, and there are eight in each row. -/
def cpShape : Bool := Secp.cp.all fun row => decide (row.length = 8) && row.all fun c =>
  decide (c.x.length = 9) && decide (c.y.length = 9) && c.x.all (fun l => decide (l < 0x40000000)) && c.y.all (fun l => decide (l < 0x40000000)) &&
    decide (limbValue c.x < secpP) && decide (limbValue c.y < secpP)

theorem cp_shape : cpShape = true := by decide +kernel

/-- Entry (i, j) of the table is the point (2j + 1) · 16^i · G. -/
theorem cp_at {i j : Nat} (hi : i < 64) (hj : j < 8) :
    ∃ row c, Secp.cp[i]? = some row ∧ row[j]? = some c ∧ IsPoint c.x c.y (((2 * j + 1) * 16 ^ i) • G) := by
  have hl : Secp.cp.length = 64 := by decide +kernel
  have hs := cp_shape
  rw [cpShape, List.all_eq_true] at hs
  have hrow := hs _ (List.getElem_mem (show i < Secp.cp.length by omega))
  rw [Bool.and_eq_true, decide_eq_true_eq, List.all_eq_true] at hrow
  obtain ⟨h8, hrow⟩ := hrow
  have hc := hrow _ (List.getElem_mem (show j < (Secp.cp[i]'(by omega)).length by omega))
  refine ⟨_, _, List.getElem?_eq_getElem (by omega), List.getElem?_eq_getElem (by omega), ?_⟩
  have hat := cpCoords_at hi hj
  have e : (cpCoords.getD i []).getD j (0, 0) = coords ((Secp.cp[i]'(by omega))[j]'(by omega)) := by
    unfold cpCoords
    have e1 : (Secp.cp.map (·.map coords)).getD i [] = (Secp.cp[i]'(by omega)).map coords := by
      rw [List.getD_eq_getElem?_getD, List.getElem?_map, List.getElem?_eq_getElem (by omega), Option.map_some, Option.getD_some]
    rw [e1, List.getD_eq_getElem?_getD, List.getElem?_map, List.getElem?_eq_getElem (by omega), Option.map_some, Option.getD_some]
  rw [e] at hat
  simp only [Bool.and_eq_true, decide_eq_true_eq, List.all_eq_true] at hc
  obtain ⟨⟨⟨⟨⟨l1, l2⟩, s1⟩, s2⟩, v1⟩, v2⟩ := hc
  exact ⟨⟨l1, fun x hx => UInt32.lt_iff_toNat_lt.mp (s1 x hx)⟩, ⟨l2, fun x hx => UInt32.lt_iff_toNat_lt.mp (s2 x hx)⟩, v1, v2, Or.inr hat⟩

theorem nsmul_G : secpN • G = 0 := by
  have d0 : CurveData.digits.getD 0 (false, 0) = (CurveData.digits.getD 0 (false, 0)) := rfl
  have hd0 : (CurveData.digits.getD 0 (false, 0)).2 < 8 := by decide +kernel
  have hy0 : ((cpCoords.getD 0 []).getD (CurveData.digits.getD 0 (false, 0)).2 (0, 0)).2 < secpP := by decide +kernel
  have hy1 : ((cpCoords.getD 63 []).getD 7 (0, 0)).2 < secpP := by decide +kernel
  have h0 := signed_sound (cpCoords_at (i := 0) (by norm_num) hd0) hy0 (CurveData.digits.getD 0 (false, 0)).1
  have e0 : digitVal (CurveData.digits.getD 0 (false, 0)) • G =
      if (CurveData.digits.getD 0 (false, 0)).1 then -(((2 * (CurveData.digits.getD 0 (false, 0)).2 + 1) * 16 ^ 0) • G)
      else ((2 * (CurveData.digits.getD 0 (false, 0)).2 + 1) * 16 ^ 0) • G := by
    unfold digitVal
    rw [← natCast_zsmul]
    split
    · rw [← neg_zsmul]
      congr 1
    · congr 1
  rw [← e0] at h0
  have h1 := sumCheck_sound G _ _ (cpCoords.drop 1) 1 _ _ _ h0 (by
    intro k hk j hj
    have hk' : k < 63 := by rw [List.length_drop, cpCoords_length] at hk; omega
    have := cpCoords_at (i := 1 + k) (by omega) hj
    have e1 : (cpCoords.drop 1).getD k [] = cpCoords.getD (1 + k) [] := by
      rw [List.getD_eq_getElem?_getD, List.getElem?_drop, ← List.getD_eq_getElem?_getD]
    rw [e1]
    exact this) n_checked
  have h2 := signed_sound (cpCoords_at (i := 63) (by norm_num) (show 7 < 8 by norm_num)) hy1 true
  have h3 := At.inj h1 h2
  simp only [if_true] at h3
  rw [← natCast_zsmul] at h3 ⊢
  have h4 : ((secpN : Int) - 15 * 16 ^ 63) • G + ((((2 * 7 + 1) * 16 ^ 63 : Nat)) : Int) • G = 0 := by rw [h3]; exact neg_add_cancel _
  rw [← add_zsmul] at h4
  have h5 : (secpN : Int) - 15 * 16 ^ 63 + (((2 * 7 + 1) * 16 ^ 63 : Nat) : Int) = (secpN : Int) := by push_cast; ring
  rw [h5] at h4
  exact h4

theorem order_G : addOrderOf G = secpN := addOrderOf_eq_prime nsmul_G at_G.ne_zero

/-- x-coordinate. -/
def xOf : Pt → Option Fp
  | .zero => none
  | .some x _ _ => some x

def xyOf : Pt → Option (Fp × Fp)
  | .zero => none
  | .some x y _ => some (x, y)

theorem xyOf_injective : Function.Injective xyOf := by
  intro P Q h
  cases P with
  | zero =>
    cases Q with
    | zero => rfl
    | some => cases h
  | some x y hp =>
    cases Q with
    | zero => cases h
    | some x' y' hq =>
      simp only [xyOf, Option.some.injEq, Prod.mk.injEq] at h
      obtain ⟨rfl, rfl⟩ := h
      rfl

instance finite_Pt : Finite Pt := Finite.of_injective xyOf xyOf_injective

noncomputable instance fintype_Pt : Fintype Pt := Fintype.ofFinite Pt

theorem xOf_at {P : Pt} {x y : Fp} (h : At P x y) : xOf P = some x := by
  obtain ⟨h, rfl⟩ := h
  rfl

theorem fibre_le (b : Option Fp) : (Finset.univ.filter fun P : Pt => xOf P = b).card ≤ 2 := by
  cases b with
  | none =>
    have : (Finset.univ.filter fun P : Pt => xOf P = none) ⊆ {0} := by
      intro P hP
      simp only [Finset.mem_filter, Finset.mem_univ, true_and] at hP
      by_contra hc
      obtain ⟨x, y, hat⟩ := exists_at (P := P) (fun e => hc (by simp [e]))
      rw [xOf_at hat] at hP
      cases hP
    exact (Finset.card_le_card this).trans (by simp)
  | some x =>
    by_cases he : ∃ P : Pt, xOf P = some x
    · obtain ⟨P, hP⟩ := he
      have hP0 : P ≠ 0 := by rintro rfl; cases hP
      obtain ⟨x', y, hat⟩ := exists_at hP0
      rw [xOf_at hat, Option.some.injEq] at hP
      subst hP
      have : (Finset.univ.filter fun P : Pt => xOf P = some x') ⊆ {P, -P} := by
        intro Q hQ
        simp only [Finset.mem_filter, Finset.mem_univ, true_and] at hQ
        have hQ0 : Q ≠ 0 := by rintro rfl; cases hQ
        obtain ⟨x2, y2, hat2⟩ := exists_at hQ0
        rw [xOf_at hat2, Option.some.injEq] at hQ
        subst hQ
        rcases hat.same_x hat2 with h | h <;> simp [h]
      exact (Finset.card_le_card this).trans Finset.card_le_two
    · have : (Finset.univ.filter fun P : Pt => xOf P = some x) = ∅ := by
        ext P
        simp only [Finset.mem_filter, Finset.mem_univ, true_and, Finset.notMem_empty, iff_false]
        exact fun h => he ⟨P, h⟩
      rw [this]
      simp

theorem card_le : Fintype.card Pt ≤ 2 * (secpP + 1) := by
  have h1 := Finset.card_le_mul_card_image (f := xOf) (Finset.univ : Finset Pt) 2 (fun b _ => fibre_le b)
  have h2 : (Finset.univ.image xOf : Finset (Option Fp)).card ≤ Fintype.card (Option Fp) := Finset.card_le_univ _
  rw [Fintype.card_option, ZMod.card] at h2
  rw [Finset.card_univ] at h1
  exact h1.trans (Nat.mul_le_mul_left _ h2)

/-- The curve has exactly `secpN` points. -/
theorem card_Pt : Fintype.card Pt = secpN := by
  obtain ⟨k, hk⟩ : secpN ∣ Fintype.card Pt := order_G ▸ addOrderOf_dvd_card
  have hle := card_le
  have h0 : 0 < Fintype.card Pt := Fintype.card_pos
  have hn : 0 < secpN := by decide +kernel
  have h3 : 2 * (secpP + 1) < secpN * 3 := by decide +kernel
  have hk3 : k < 3 := by
    rw [hk] at hle
    exact Nat.lt_of_mul_lt_mul_left (lt_of_le_of_lt hle h3)
  have hk0 : k ≠ 0 := by rintro rfl; rw [hk] at h0; simp at h0
  have hk2 : k ≠ 2 := by
    rintro rfl
    have hd : 2 ∣ Fintype.card Pt := ⟨secpN, by rw [hk, Nat.mul_comm]⟩
    obtain ⟨P, hP⟩ := exists_prime_addOrderOf_dvd_card 2 hd
    have hP2 : 2 • P = 0 := by rw [← hP]; exact addOrderOf_nsmul_eq_zero P
    have hP0 : P ≠ 0 := by
      rintro rfl
      rw [addOrderOf_zero] at hP
      cases hP
    obtain ⟨x, y, hat⟩ := exists_at hP0
    rw [two_nsmul] at hP2
    have hneg : P = -P := eq_neg_of_add_eq_zero_left hP2
    have := (hat.coords (hneg ▸ hat.neg : At P x (-y))).2
    have h2y : 2 * y = 0 := by linear_combination this
    rcases mul_eq_zero.mp h2y with h | h
    · exact two_ne h
    · exact hat.y_ne h
  have : k = 1 := by omega
  rw [hk, this, Nat.mul_one]

/-- Every point times the order is the point at infinity. -/
theorem nsmul_order (P : Pt) : secpN • P = 0 := by rw [← card_Pt]; exact card_nsmul_eq_zero

theorem addOrderOf_point {P : Pt} (h : P ≠ 0) : addOrderOf P = secpN := addOrderOf_eq_prime (nsmul_order P) h

theorem zsmul_eq_zero_iff {P : Pt} (h : P ≠ 0) (k : Int) : k • P = 0 ↔ (secpN : Int) ∣ k := by
  rw [← addOrderOf_point h]
  exact addOrderOf_dvd_iff_zsmul_eq_zero.symm

/-- Every point is a multiple of G. -/
theorem exists_log (P : Pt) : ∃ k < secpN, P = k • G := by
  have h1 : AddSubgroup.zmultiples G = ⊤ := by
    apply AddSubgroup.eq_top_of_card_eq
    rw [Nat.card_zmultiples, order_G, Nat.card_eq_fintype_card, card_Pt]
  have h2 : P ∈ AddSubgroup.zmultiples G := by rw [h1]; exact AddSubgroup.mem_top P
  rw [mem_zmultiples_iff_mem_range_addOrderOf, order_G] at h2
  simp only [Finset.mem_image, Finset.mem_range] at h2
  obtain ⟨k, hk, e⟩ := h2
  exact ⟨k, hk, e.symm⟩

end UB
