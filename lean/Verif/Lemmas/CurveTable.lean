import Verif.Model.SecpTable
import Verif.Lemmas.CurveData
import Verif.Lemmas.Curve
import Verif.Spec.Bignum
import Mathlib.Tactic.Module

/-
The table of points of secp256k1.table is right, and the base point has order `secpN`.
-/

namespace UB
open Spec

/-- Chord check without division: `R = P + Q`. -/
def addCheck (P Q R : Nat × Nat) : Bool :=
  decide (P.1 < secpP) && decide (P.2 < secpP) && decide (Q.1 < secpP) && decide (Q.2 < secpP) && decide (R.1 < secpP) &&
  decide (P.1 ≠ Q.1) &&
  decide ((Q.2 + secpP - P.2) * (P.1 + secpP - R.1) % secpP = (Q.1 + secpP - P.1) * (P.2 + R.2) % secpP) &&
  decide ((P.1 + Q.1 + R.1) * (Q.1 + secpP - P.1) ^ 2 % secpP = (Q.2 + secpP - P.2) ^ 2 % secpP)

/-- Tangent check: `R = P + P`. -/
def doubleCheck (P R : Nat × Nat) : Bool :=
  decide (P.1 < secpP) && decide (P.2 < secpP) && decide (P.2 ≠ 0) && decide (R.1 < secpP) &&
  decide (3 * P.1 ^ 2 * (P.1 + secpP - R.1) % secpP = 2 * P.2 * (P.2 + R.2) % secpP) &&
  decide ((R.1 + 2 * P.1) * (2 * P.2) ^ 2 % secpP = (3 * P.1 ^ 2) ^ 2 % secpP)

/-- The point with these numbers as coordinates. -/
def AtN (P : Pt) (c : Nat × Nat) : Prop := At P (c.1 : Fp) (c.2 : Fp)

theorem cast_sub_mod {a b : Nat} (h : b < secpP) : ((a + secpP - b : Nat) : Fp) = (a : Fp) - b := by
  rw [Nat.cast_sub (by omega), Nat.cast_add, ZMod.natCast_self, add_zero]

theorem cast_mod_eq {a b : Nat} (h : a % secpP = b % secpP) : (a : Fp) = (b : Fp) := (ZMod.natCast_eq_natCast_iff' _ _ _).mpr h

theorem cast_inj_lt {a b : Nat} (ha : a < secpP) (hb : b < secpP) (h : (a : Fp) = (b : Fp)) : a = b := by
  rw [ZMod.natCast_eq_natCast_iff', Nat.mod_eq_of_lt ha, Nat.mod_eq_of_lt hb] at h
  exact h

theorem addCheck_sound {P Q : Pt} {p q r : Nat × Nat} (hP : AtN P p) (hQ : AtN Q q) (h : addCheck p q r = true) : AtN (P + Q) r := by
  simp only [addCheck, Bool.and_eq_true, decide_eq_true_eq] at h
  obtain ⟨⟨⟨⟨⟨⟨⟨h1, h2⟩, h3⟩, h4⟩, h5⟩, h6⟩, h7⟩, h8⟩ := h
  have e7 := cast_mod_eq h7
  have e8 := cast_mod_eq h8
  push_cast [cast_sub_mod h2, cast_sub_mod h5, cast_sub_mod h1] at e7 e8
  have hne : (p.1 : Fp) ≠ (q.1 : Fp) := fun hc => h6 (cast_inj_lt h1 h3 hc)
  have hd : (q.1 : Fp) - p.1 ≠ 0 := sub_ne_zero.mpr (Ne.symm hne)
  refine At.add (l := ((q.2 : Fp) - p.2) / ((q.1 : Fp) - p.1)) hP hQ hne ?_ ?_ ?_
  · field_simp
    ring
  · field_simp
    linear_combination e8
  · field_simp
    linear_combination -e7

theorem doubleCheck_sound {P : Pt} {p r : Nat × Nat} (hP : AtN P p) (h : doubleCheck p r = true) : AtN (P + P) r := by
  simp only [doubleCheck, Bool.and_eq_true, decide_eq_true_eq] at h
  obtain ⟨⟨⟨⟨⟨h1, h2⟩, h3⟩, h5⟩, h7⟩, h8⟩ := h
  have e7 := cast_mod_eq h7
  have e8 := cast_mod_eq h8
  push_cast [cast_sub_mod h5] at e7 e8
  have hne : (p.2 : Fp) ≠ 0 := by
    intro hc
    have hc' : ((p.2 : Nat) : Fp) = ((0 : Nat) : Fp) := by simpa using hc
    exact h3 (cast_inj_lt h2 (by decide +kernel) hc')
  have h2' := two_ne
  refine At.double (l := (3 * (p.1 : Fp) ^ 2) / (2 * p.2)) hP hne ?_ ?_ ?_
  · field_simp
  · field_simp
    linear_combination e8
  · field_simp
    linear_combination -e7

/-- Consecutive entries differ by `d`. -/
def chainCheck (d : Nat × Nat) : List (Nat × Nat) → Bool
  | a :: b :: r => addCheck a d b && chainCheck d (b :: r)
  | _ => true

def rowCheck (d : Nat × Nat) (row : List (Nat × Nat)) : Bool :=
  decide (row.length = 8) && doubleCheck (row.getD 0 (0, 0)) d && chainCheck d row

def rowsCheck : List (List (Nat × Nat)) → List (Nat × Nat) → Bool
  | row :: row' :: rows, d :: ds =>
    rowCheck d row && addCheck (row.getD 7 (0, 0)) (row.getD 0 (0, 0)) (row'.getD 0 (0, 0)) && rowsCheck (row' :: rows) ds
  | [row], [d] => rowCheck d row
  | _, _ => false

theorem chainCheck_sound (d : Nat × Nat) (D : Pt) (hD : AtN D d) : ∀ (row : List (Nat × Nat)) (P : Pt), AtN P (row.getD 0 (0, 0)) →
    chainCheck d row = true → ∀ j < row.length, AtN (P + j • D) (row.getD j (0, 0)) := by
  intro row
  induction row with
  | nil => intro P _ _ j hj; simp at hj
  | cons a r ih =>
    intro P hP hc j hj
    cases j with
    | zero => simpa using hP
    | succ j =>
      cases r with
      | nil => simp at hj
      | cons b r =>
        simp only [chainCheck, Bool.and_eq_true] at hc
        have h1 := addCheck_sound (by simpa using hP) hD hc.1
        have h2 := ih (P + D) (by simpa using h1) hc.2 j (by simpa using hj)
        have e : P + (j + 1) • D = P + D + j • D := by rw [add_nsmul, one_nsmul]; abel
        rw [e]
        simpa using h2

theorem rowCheck_sound (d : Nat × Nat) (row : List (Nat × Nat)) (P : Pt) (hP : AtN P (row.getD 0 (0, 0))) (h : rowCheck d row = true) :
    row.length = 8 ∧ ∀ j < 8, AtN ((2 * j + 1) • P) (row.getD j (0, 0)) := by
  simp only [rowCheck, Bool.and_eq_true, decide_eq_true_eq] at h
  obtain ⟨⟨h1, h2⟩, h3⟩ := h
  refine ⟨h1, fun j hj => ?_⟩
  have hD := doubleCheck_sound hP h2
  have := chainCheck_sound d _ hD row P hP h3 j (by omega)
  have e : (2 * j + 1) • P = P + j • (P + P) := by module
  rw [e]
  exact this

theorem rowsCheck_sound : ∀ (rows : List (List (Nat × Nat))) (ds : List (Nat × Nat)) (P : Pt),
    AtN P ((rows.getD 0 []).getD 0 (0, 0)) → rowsCheck rows ds = true →
    ∀ i < rows.length, ∀ j < 8, AtN (((2 * j + 1) * 16 ^ i) • P) ((rows.getD i []).getD j (0, 0)) := by
  intro rows
  induction rows with
  | nil => intro ds P _ _ i hi; simp at hi
  | cons row rows ih =>
    intro ds P hP h i hi j hj
    cases rows with
    | nil =>
      match ds, h with
      | [d], h =>
        have hi0 : i = 0 := by simpa using hi
        subst hi0
        simp only [rowsCheck] at h
        simpa using (rowCheck_sound d row P (by simpa using hP) h).2 j hj
    | cons row' rows =>
      match ds, h with
      | d :: ds, h =>
        simp only [rowsCheck, Bool.and_eq_true] at h
        obtain ⟨⟨h1, h2⟩, h3⟩ := h
        have hr := (rowCheck_sound d row P (by simpa using hP) h1).2
        cases i with
        | zero => simpa using hr j hj
        | succ i =>
          have h7 := hr 7 (by norm_num)
          have h0 := hr 0 (by norm_num)
          have h16 := addCheck_sound h7 h0 h2
          have e : (2 * 7 + 1) • P + (2 * 0 + 1) • P = 16 • P := by module
          rw [e] at h16
          have := ih ds (16 • P) (by simpa using h16) h3 i (by simpa using hi) j hj
          have e2 : ((2 * j + 1) * 16 ^ (i + 1)) • P = ((2 * j + 1) * 16 ^ i) • 16 • P := by rw [← mul_nsmul']; congr 1; ring
          rw [e2]
          simpa using this

/-- The opposite of a point, if asked for. -/
def signedPt (neg : Bool) (P : Nat × Nat) : Nat × Nat := if neg then (P.1, secpP - P.2) else P

/-- The value of a digit. -/
def digitVal (d : Bool × Nat) : Int := if d.1 then -(2 * (d.2 : Int) + 1) else 2 * (d.2 : Int) + 1

/-- Check partial sums; gives the last one and its factor. -/
def sumCheck : Nat → Int → Nat × Nat → List (List (Nat × Nat)) → List (Bool × Nat) → List (Nat × Nat) → Option (Int × (Nat × Nat))
  | _, t, T, _, [], [] => some (t, T)
  | i, t, T, row :: rows, dg :: dgs, W :: Ws =>
    if decide (dg.2 < 8) && decide ((row.getD dg.2 (0, 0)).2 < secpP) && addCheck T (signedPt dg.1 (row.getD dg.2 (0, 0))) W then
      sumCheck (i + 1) (t + digitVal dg * 16 ^ i) W rows dgs Ws
    else none
  | _, _, _, _, _, _ => none

theorem signed_sound {P : Pt} {p : Nat × Nat} (h : AtN P p) (hp : p.2 < secpP) (b : Bool) :
    AtN (if b then -P else P) (signedPt b p) := by
  cases b with
  | false => simpa [signedPt] using h
  | true =>
    have := At.neg h
    simp only [if_true, signedPt]
    unfold AtN
    simp only
    rw [Nat.cast_sub hp.le, ZMod.natCast_self, zero_sub]
    exact this

theorem sumCheck_sound (B : Pt) : ∀ (dgs : List (Bool × Nat)) (Ws : List (Nat × Nat)) (rows : List (List (Nat × Nat))) (i : Nat) (t : Int) (T : Nat × Nat) (r : Int × (Nat × Nat)),
    AtN (t • B) T → (∀ k < rows.length, ∀ j < 8, AtN (((2 * j + 1) * 16 ^ (i + k)) • B) ((rows.getD k []).getD j (0, 0))) →
    sumCheck i t T rows dgs Ws = some r → AtN (r.1 • B) r.2 := by
  intro dgs
  induction dgs with
  | nil =>
    intro Ws rows i t T r hT _ h
    cases Ws with
    | nil => simp only [sumCheck, Option.some.injEq] at h; subst h; exact hT
    | cons => simp [sumCheck] at h
  | cons dg dgs ih =>
    intro Ws rows i t T r hT hr h
    match rows, Ws, h with
    | row :: rows, W :: Ws, h =>
      rw [sumCheck] at h
      split at h
      · rename_i hc
        simp only [Bool.and_eq_true, decide_eq_true_eq] at hc
        obtain ⟨⟨h1, h2⟩, h3⟩ := hc
        have h4 := hr 0 (by simp) dg.2 h1
        simp only [List.getD_cons_zero, Nat.add_zero] at h4
        have h5 := addCheck_sound hT (signed_sound h4 h2 dg.1) h3
        refine ih Ws rows (i + 1) _ W r ?_ ?_ h
        · convert h5 using 1
          rw [add_zsmul]
          congr 1
          unfold digitVal
          rw [← natCast_zsmul]
          split
          · rw [← neg_zsmul]
            congr 1
          · congr 1
        · intro k hk j hj
          have := hr (k + 1) (by simpa using hk) j hj
          rw [show i + 1 + k = i + (k + 1) by omega]
          simpa using this
      · cases h

/-! ### The numbers -/

/-- Coordinates as numbers. -/
def coords (c : CurvePoint) : Nat × Nat := (limbValue c.x, limbValue c.y)

def cpCoords : List (List (Nat × Nat)) := Secp.cp.map (·.map coords)

theorem cp_checked : rowsCheck cpCoords CurveData.doubles = true := by decide +kernel

theorem n_checked : sumCheck 1 (digitVal (CurveData.digits.getD 0 (false, 0)))
    (signedPt (CurveData.digits.getD 0 (false, 0)).1 ((cpCoords.getD 0 []).getD (CurveData.digits.getD 0 (false, 0)).2 (0, 0)))
    (cpCoords.drop 1) ((CurveData.digits.drop 1).take 62) CurveData.sums = some ((secpN : Int) - 15 * 16 ^ 63,
      signedPt true ((cpCoords.getD 63 []).getD 7 (0, 0))) := by decide +kernel

end UB
