import Mathlib.FieldTheory.Finite.Basic
import Verif.Lemmas.Curve
import Verif.Lemmas.Residue
import Verif.Model.Curve
import Verif.Props.Bignum

/-
The point operations of ecdsa.c compute in the group of the curve.
-/

namespace UB
open Spec BN

attribute [local irreducible] secpP BN.multiply BN.fastMod BN.mod BN.subtractmod BN.multK BN.addmod BN.inverse BN.lshift BN.subi BN.add
  BN.multHalf BN.cmov BN.isEqual BN.isZero

theorem pm_prime : PrimeMod Secp.prime secpP := ⟨modulus_prime, value_prime, prime_secpP, by decide +kernel⟩
theorem pm_order : PrimeMod Secp.order secpN := ⟨modulus_order, value_order, prime_secpN, by decide +kernel⟩

theorem pow_ne_one_of (p a e : Nat) (he : e < 2 ^ 256) (hp : 1 < p) (h : powMod p 256 a e 1 ≠ 1) : (a : ZMod p) ^ e ≠ 1 := by
  rw [powMod_spec _ _ _ _ _ he, Nat.one_mul] at h
  intro hc
  apply h
  have : ((a ^ e : Nat) : ZMod p) = ((1 : Nat) : ZMod p) := by push_cast; exact hc
  rw [ZMod.natCast_eq_natCast_iff', Nat.mod_eq_of_lt hp] at this
  exact this

theorem not_cube (p c : Nat) [Fact p.Prime] (h3 : p - 1 = 3 * ((p - 1) / 3)) (hb : (p - 1) / 3 < 2 ^ 256) (hp : 1 < p)
    (h : powMod p 256 c ((p - 1) / 3) 1 ≠ 1) (x : ZMod p) (hx : x ≠ 0) : x ^ 3 ≠ (c : ZMod p) := by
  intro hc
  have h1 := ZMod.pow_card_sub_one_eq_one hx
  rw [h3, pow_mul, hc] at h1
  exact pow_ne_one_of p c _ hb hp h h1

/-- No point has the ordinate 0 (-7 is not a cube), so there is no point of order 2. -/
theorem no_root (x : Fp) : x ^ 3 + 7 ≠ 0 := by
  intro h
  have h3 : x ^ 3 = ((secpP - 7 : Nat) : Fp) := by
    rw [Nat.cast_sub (by decide +kernel), ZMod.natCast_self, zero_sub]
    push_cast
    linear_combination h
  have hx : x ≠ 0 := by
    rintro rfl
    exact seven_ne (by linear_combination h)
  exact not_cube secpP (secpP - 7) (by decide +kernel) (by decide +kernel) (by decide +kernel) (by decide +kernel) x hx h3

theorem _root_.UB.Spec.At.y_ne {P : Pt} {x y : Fp} (h : At P x y) : y ≠ 0 := by
  rintro rfl
  have := h.eqn
  exact no_root x (by linear_combination -this)

/-- `IsPoint` in terms of residues. -/
theorem isPoint_iff (c : CurvePoint) (P : Pt) : IsPoint c.x c.y P ↔
    ∃ x y : Fp, Res secpP 1 c.x x ∧ Res secpP 1 c.y y ∧ ((P = 0 ∧ x = 0 ∧ y = 0) ∨ At P x y) := by
  constructor
  · rintro ⟨h1, h2, h3, h4, h5⟩
    have rx := Res.self h1 h3
    have ry := Res.self h2 h4
    refine ⟨_, _, rx, ry, h5.imp (fun h => ⟨h.1, rx.limb_zero.mp h.2.1, ry.limb_zero.mp h.2.2⟩) id⟩
  · rintro ⟨x, y, rx, ry, h⟩
    refine ⟨rx.normal, ry.normal, by simpa using rx.lt, by simpa using ry.lt, ?_⟩
    rw [rx.val, ry.val, rx.limb_zero, ry.limb_zero]
    exact h

theorem isPoint_infinity : IsPoint CurvePoint.infinity.x CurvePoint.infinity.y 0 :=
  (isPoint_iff _ _).mpr ⟨0, 0, Res.zero pm_prime, Res.zero pm_prime, Or.inl ⟨rfl, rfl, rfl⟩⟩

/-- The point at infinity is not mistaken for another point: (0, 0) is not on the curve. -/
theorem not_at_zero {P : Pt} : ¬ At P 0 0 := fun h => h.y_ne rfl

theorem isInfinity_iff {c : CurvePoint} {P : Pt} (h : IsPoint c.x c.y P) : c.isInfinity = true ↔ P = 0 := by
  obtain ⟨x, y, rx, ry, h⟩ := (isPoint_iff c P).mp h
  rw [CurvePoint.isInfinity, Bool.and_eq_true, rx.isZero, ry.isZero]
  rcases h with ⟨h0, hx, hy⟩ | h
  · simp [h0, hx, hy]
  · refine ⟨fun e => ?_, fun e => absurd e h.ne_zero⟩
    rw [e.1, e.2] at h
    exact absurd h not_at_zero

/-- The representation of a point is unique. -/
theorem isPoint_unique {c d : CurvePoint} {P : Pt} (h : IsPoint c.x c.y P) (h' : IsPoint d.x d.y P) : c = d := by
  obtain ⟨x, y, rx, ry, h⟩ := (isPoint_iff c P).mp h
  obtain ⟨x', y', rx', ry', h'⟩ := (isPoint_iff d P).mp h'
  have e : x = x' ∧ y = y' := by
    rcases h with ⟨h0, hx, hy⟩ | h
    · rcases h' with ⟨h0', hx', hy'⟩ | h'
      · rw [hx, hy, hx', hy']; exact ⟨rfl, rfl⟩
      · exact absurd h0 h'.ne_zero
    · rcases h' with ⟨h0', hx', hy'⟩ | h'
      · exact absurd h0' h.ne_zero
      · exact h.coords h'
  obtain ⟨rfl, rfl⟩ := e
  obtain ⟨cx, cy⟩ := c
  obtain ⟨dx, dy⟩ := d
  have e1 : cx = dx := Res.eq_of_val rx rx'
  have e2 : cy = dy := Res.eq_of_val ry ry'
  rw [e1, e2]

theorem at_of_ne {c : CurvePoint} {P : Pt} (h : IsPoint c.x c.y P) (h0 : P ≠ 0) :
    ∃ x y, Res secpP 1 c.x x ∧ Res secpP 1 c.y y ∧ At P x y := by
  obtain ⟨x, y, rx, ry, h⟩ := (isPoint_iff c P).mp h
  exact ⟨x, y, rx, ry, h.resolve_left fun e => h0 e.1⟩

theorem isPoint_of_at {c : CurvePoint} {P : Pt} {x y : Fp} (rx : Res secpP 1 c.x x) (ry : Res secpP 1 c.y y) (h : At P x y) : IsPoint c.x c.y P :=
  (isPoint_iff c P).mpr ⟨x, y, rx, ry, Or.inr h⟩

theorem point_double_spec {c : CurvePoint} {P : Pt} (h : IsPoint c.x c.y P) :
    ∃ d, c.double = .ok d ∧ IsPoint d.x d.y (P + P) := by
  unfold CurvePoint.double
  by_cases h0 : P = 0
  · rw [if_pos ((isInfinity_iff h).mpr h0)]
    exact ⟨c, rfl, by rw [h0, add_zero, ← h0]; exact h⟩
  · rw [if_neg (fun e => h0 ((isInfinity_iff h).mp e))]
    obtain ⟨x, y, rx, ry, hat⟩ := at_of_ne h h0
    rw [if_neg (by rw [ry.isZero]; exact hat.y_ne)]
    have r1 := ry.multK pm_prime 2 (by decide)
    obtain ⟨l, hl, r2⟩ := r1.inverse pm_prime (mul_ne_zero (by exact_mod_cast two_ne) hat.y_ne)
    have r3 := rx.multiply pm_prime rx (by norm_num)
    have r4 := (r3.multK pm_prime 3 (by decide)).subi_zero pm_prime (by norm_num)
    have r5 := r4.multiply pm_prime r2 (by norm_num)
    have r6 := ((r5.multiply pm_prime r5 (by norm_num)).subtractmod pm_prime ((rx.lshift pm_prime (by norm_num)).mono (by norm_num)) (by norm_num))
    have r7 := (r6.fastMod pm_prime).mod pm_prime
    have r8 := rx.subtractmod pm_prime (r7.mono (show 1 ≤ 2 by norm_num)) (by norm_num)
    have r9 := r5.multiply pm_prime r8 (by norm_num)
    have r10 := (r9.subtractmod pm_prime (ry.mono (show 1 ≤ 2 by norm_num)) (by norm_num))
    have r11 := (r10.fastMod pm_prime).mod pm_prime
    simp only [hl, C.bind_ok, C.pure_eq]
    refine ⟨_, rfl, isPoint_of_at r7 r11 (At.double (l := _) hat hat.y_ne ?_ ?_ rfl)⟩
    · have h2 : ((2 : UInt8).toNat : Fp) = 2 := by norm_cast
      have h3 : ((3 : UInt8).toNat : Fp) = 3 := by norm_cast
      have hy := hat.y_ne
      have h2' := two_ne
      rw [h2, h3]
      field_simp
    · ring

theorem point_add_spec {c d : CurvePoint} {P Q : Pt} (h : IsPoint c.x c.y P) (h' : IsPoint d.x d.y Q) :
    ∃ e, c.add d = .ok e ∧ IsPoint e.x e.y (P + Q) := by
  unfold CurvePoint.add
  by_cases h0 : P = 0
  · rw [if_pos ((isInfinity_iff h).mpr h0)]
    exact ⟨d, rfl, by rw [h0, zero_add]; exact h'⟩
  rw [if_neg (fun e => h0 ((isInfinity_iff h).mp e))]
  by_cases h0' : Q = 0
  · rw [if_pos ((isInfinity_iff h').mpr h0')]
    exact ⟨c, rfl, by rw [h0', add_zero]; exact h⟩
  rw [if_neg (fun e => h0' ((isInfinity_iff h').mp e))]
  obtain ⟨x, y, rx, ry, hat⟩ := at_of_ne h h0
  obtain ⟨x', y', rx', ry', hat'⟩ := at_of_ne h' h0'
  by_cases he : c.isEqual d = true
  · rw [if_pos he]
    rw [CurvePoint.isEqual, Bool.and_eq_true, rx.isEqual rx', ry.isEqual ry'] at he
    obtain ⟨rfl, rfl⟩ := he
    rw [hat.inj hat']
    exact point_double_spec h'
  rw [if_neg he]
  rw [CurvePoint.isEqual, Bool.and_eq_true, rx.isEqual rx', ry.isEqual ry'] at he
  by_cases hx : x = x'
  · subst hx
    have hy : y ≠ y' := fun e => he ⟨rfl, e⟩
    have hn : c.isNegativeOf d = true := by
      unfold CurvePoint.isNegativeOf
      rw [if_neg (by rw [(rx.isEqual rx').mpr rfl]; decide), if_neg (by rw [ry.isZero]; exact hat.y_ne)]
      rw [Bool.not_eq_true', ← Bool.not_eq_true, ry.isEqual ry']
      exact hy
    rw [if_pos hn]
    have : Q = -P := (hat.same_x hat').resolve_left fun e => hy (hat.coords (e ▸ hat')).2
    exact ⟨_, rfl, by rw [this, add_neg_cancel]; exact isPoint_infinity⟩
  · have hn : ¬ c.isNegativeOf d = true := by
      unfold CurvePoint.isNegativeOf
      rw [if_pos (by rw [Bool.not_eq_true', ← Bool.not_eq_true, rx.isEqual rx']; exact hx)]
      decide
    rw [if_neg hn]
    have hne : x' - x ≠ 0 := sub_ne_zero.mpr (Ne.symm hx)
    have r1 := rx'.subtractmod pm_prime (rx.mono (show 1 ≤ 2 by norm_num)) (by norm_num)
    obtain ⟨i, hi, r2⟩ := r1.inverse pm_prime hne
    have r3 := ry'.subtractmod pm_prime (ry.mono (show 1 ≤ 2 by norm_num)) (by norm_num)
    have r5 := r2.multiply pm_prime r3 (by norm_num)
    have r6 := (r5.multiply pm_prime r5 (by norm_num)).subtractmod pm_prime (rx.addmod pm_prime rx') (by norm_num)
    have r7 := (r6.fastMod pm_prime).mod pm_prime
    have r8 := rx.subtractmod pm_prime (r7.mono (show 1 ≤ 2 by norm_num)) (by norm_num)
    have r9 := r5.multiply pm_prime r8 (by norm_num)
    have r10 := (r9.subtractmod pm_prime (ry.mono (show 1 ≤ 2 by norm_num)) (by norm_num))
    have r11 := (r10.fastMod pm_prime).mod pm_prime
    simp only [hi, C.bind_ok, C.pure_eq]
    refine ⟨_, rfl, isPoint_of_at r7 r11 (At.add (l := _) hat hat' hx ?_ ?_ rfl)⟩
    · field_simp
      ring
    · ring

/-! ### Jacobian coordinates -/

/-- `j` holds `P` in Jacobian coordinates: (x z², y z³, z) with z not 0, all below twice the prime. -/
def JRep (j : JacobianPoint) (P : Pt) : Prop := ∃ x y z : Fp, At P x y ∧ z ≠ 0 ∧
  Res secpP 2 j.x (x * z ^ 2) ∧ Res secpP 2 j.y (y * z ^ 3) ∧ Res secpP 2 j.z z

theorem JRep.ne_zero {j : JacobianPoint} {P : Pt} (h : JRep j P) : P ≠ 0 := by
  obtain ⟨x, y, z, h, -⟩ := h
  exact h.ne_zero

theorem toJacobian_spec {c : CurvePoint} {P : Pt} (h : IsPoint c.x c.y P) (h0 : P ≠ 0) (z : BN) (hz : Normal z)
    (hz0 : 0 < limbValue z) (hzl : limbValue z < secpP) : JRep (c.toJacobian z) P := by
  obtain ⟨x, y, rx, ry, hat⟩ := at_of_ne h h0
  have rz := Res.self (q := secpP) hz hzl
  have r1 := rz.multiply pm_prime rz (by norm_num)
  have r2 := rz.multiply pm_prime r1 (by norm_num)
  refine ⟨x, y, _, hat, ?_, (rx.multiply pm_prime r1 (by norm_num)).congr ?_, (ry.multiply pm_prime r2 (by norm_num)).congr ?_, rz.mono (by norm_num)⟩
  · rw [Ne, ← rz.limb_zero]; omega
  · ring
  · ring

theorem toCurve_spec {j : JacobianPoint} {P : Pt} (h : JRep j P) : ∃ c, j.toCurve = .ok c ∧ IsPoint c.x c.y P := by
  obtain ⟨x, y, z, hat, hz, jx, jy, jz⟩ := h
  obtain ⟨i, hi, r2⟩ := jz.inverse pm_prime hz
  have r3 := r2.multiply pm_prime r2 (by norm_num)
  have r4 := r3.multiply pm_prime r2 (by norm_num)
  have r5 := (jx.multiply pm_prime r3 (by norm_num)).mod pm_prime
  have r6 := (jy.multiply pm_prime r4 (by norm_num)).mod pm_prime
  unfold JacobianPoint.toCurve
  simp only [hi, C.bind_ok, C.pure_eq]
  refine ⟨_, rfl, isPoint_of_at (r5.congr ?_) (r6.congr ?_) hat⟩
  · field_simp
  · field_simp

/-- The common part of addition and doubling: `z3 = h z`, `r = λ z3`. -/
theorem jadd_core {P : Pt} {x1 y1 x2 y2 z z3 l r h xs ys : Fp} (hr : r = l * z3) (hh : z3 = h * z) (hxs : xs = (x1 + x2) * z ^ 2)
    (hys : ys = (y1 + y2) * z ^ 3) (hz3 : z3 ≠ 0) (hl : l * (x1 - x2) = y1 - y2)
    (hP : At P (l ^ 2 - x1 - x2) (l * (x1 - (l ^ 2 - x1 - x2)) - y1)) :
    ∃ x y, At P x y ∧ r * r - xs * (h * h) = x * z3 ^ 2 ∧
      (r * ((xs * (h * h)) - (r * r - xs * (h * h)) - (r * r - xs * (h * h))) - ys * (h * h * h)) / 2 = y * z3 ^ 3 := by
  refine ⟨_, _, hP, ?_, ?_⟩
  · subst hr hh hxs
    ring
  · rw [div_eq_iff two_ne]
    subst hr hh hxs hys
    linear_combination -(h * z) ^ 3 * hl

theorem isDoubling_iff {m : Nat} {a : BN} {v : Fp} (ha : Res secpP m a v) (h0 : 0 < limbValue a) (hm : m ≤ 2 ^ 12) :
    BN.isEqual (BN.fastMod a Secp.prime) Secp.prime = true ↔ v = 0 := by
  have hf := ha.fastMod pm_prime
  rw [isEqual_iff hf.normal modulus_prime.normal]
  constructor
  · intro h
    rw [← hf.val, h, value_prime, ZMod.natCast_self]
  · intro h
    subst h
    rw [Res.fastMod_multiple pm_prime ha h0 hm]

/-- The last part of `point_jacobian_add`, for the numerator `R` and the denominator `H` chosen. -/
theorem jadd_tail {S : Pt} {R H XS YS Z : BN} {r h l z x1 y1 x2 y2 xs ys : Fp} (hR : Res secpP 4 R r) (hH : Res secpP 4 H h)
    (hXS : Res secpP 4 XS xs) (hYS : Res secpP 4 YS ys) (hZ : Res secpP 2 Z z)
    (hr : r = l * (h * z)) (hxs : xs = (x1 + x2) * z ^ 2) (hys : ys = (y1 + y2) * z ^ 3) (hz3 : h * z ≠ 0)
    (hl : l * (x1 - x2) = y1 - y2) (hP : At S (l ^ 2 - x1 - x2) (l * (x1 - (l ^ 2 - x1 - x2)) - y1)) :
    JRep (
      let hsqx := multiply H H Secp.prime
      let hcby := multiply hsqx H Secp.prime
      let hsqx := multiply XS hsqx Secp.prime
      let hcby := multiply YS hcby Secp.prime
      let z := multiply H Z Secp.prime
      let x := multiply R R Secp.prime
      let x := fastMod (subtractmod x hsqx Secp.prime) Secp.prime
      let y := subtractmod hsqx x Secp.prime
      let y := subtractmod y x Secp.prime
      let y := multiply R y Secp.prime
      let y := subtractmod y hcby Secp.prime
      let y := fastMod (multHalf y Secp.prime) Secp.prime
      ⟨x, y, z⟩) S := by
  have s1 := hH.multiply pm_prime hH (by norm_num)
  have s2 := s1.multiply pm_prime hH (by norm_num)
  have s3 := hXS.multiply pm_prime s1 (by norm_num)
  have s4 := hYS.multiply pm_prime s2 (by norm_num)
  have s5 := hH.multiply pm_prime hZ (by norm_num)
  have s6 := hR.multiply pm_prime hR (by norm_num)
  have s7 := (s6.subtractmod pm_prime s3 (by norm_num)).fastMod pm_prime
  have s8 := (s3.subtractmod pm_prime s7 (by norm_num)).subtractmod pm_prime s7 (by norm_num)
  have s9 := (hR.multiply pm_prime s8 (by norm_num)).subtractmod pm_prime s4 (by norm_num)
  have s10 := (s9.multHalf pm_prime).fastMod pm_prime
  obtain ⟨x, y, h1, h2, h3⟩ := jadd_core (z3 := h * z) hr rfl hxs hys hz3 hl hP
  exact ⟨x, y, h * z, h1, hz3, s7.congr h2, s10.congr h3, s5⟩

theorem jadd_spec {c : CurvePoint} {j : JacobianPoint} {P Q : Pt} (h : IsPoint c.x c.y P) (h0 : P ≠ 0) (hj : JRep j Q)
    (hne : P ≠ -Q) : JRep (j.add c) (P + Q) := by
  obtain ⟨x1, y1, rx, ry, hat⟩ := at_of_ne h h0
  obtain ⟨x2, y2, z, hat2, hz, jx, jy, jz⟩ := hj
  have r1 := jz.multiply pm_prime jz (by norm_num)
  have r2 := r1.multiply pm_prime jz (by norm_num)
  have rX := rx.multiply pm_prime r1 (by norm_num)
  have rY := ry.multiply pm_prime r2 (by norm_num)
  have rs := rX.subtractmod pm_prime jx (by norm_num)
  have rs0 := rX.subtractmod_pos pm_prime jx (by norm_num)
  have rxs := rX.add pm_prime jx (by norm_num)
  have rys := rY.add pm_prime jy (by norm_num)
  have rr := rY.subtractmod pm_prime jy (by norm_num)
  have rd := (jx.multiply pm_prime jx (by norm_num)).multK pm_prime 3 (by decide)
  have hd := isDoubling_iff rs rs0 (by norm_num)
  have h3 : ((3 : UInt8).toNat : Fp) = 3 := by norm_cast
  have rh := rs.fastMod pm_prime
  have l1 := rd.normal.len.trans rr.normal.len.symm
  have l2 := rys.normal.len.trans rh.normal.len.symm
  unfold JacobianPoint.add
  simp only
  rw [cmov_eq _ _ _ l1, cmov_eq _ _ _ l2]
  by_cases hx : x1 = x2
  · subst hx
    rw [if_pos (hd.mpr (by ring)), if_pos (hd.mpr (by ring))]
    have hPQ : Q = P := (hat.same_x hat2).resolve_right fun e => hne (by rw [e, neg_neg])
    subst hPQ
    obtain ⟨-, rfl⟩ := hat.coords hat2
    have hy := hat.y_ne
    have h2 := two_ne
    refine jadd_tail (l := 3 * x1 ^ 2 / (2 * y1)) (z := z) (x1 := x1) (x2 := x1) (y1 := y1) (y2 := y1) (rd.mono (by norm_num)) rys rxs rys jz
      ?_ (by ring) (by ring) ?_ (by ring) ?_
    · rw [h3]
      field_simp
      ring
    · have : (y1 * (z * z * z) + y1 * z ^ 3) * z = 2 * y1 * z ^ 4 := by ring
      rw [this]
      exact mul_ne_zero (mul_ne_zero h2 hy) (pow_ne_zero _ hz)
    · refine At.double (l := 3 * x1 ^ 2 / (2 * y1)) hat hy ?_ ?_ ?_
      · field_simp
      · ring
      · ring
  · have hz2 : x1 * (z * z) - x2 * z ^ 2 = (x1 - x2) * z ^ 2 := by ring
    have hn : x1 - x2 ≠ 0 := sub_ne_zero.mpr hx
    have hv : x1 * (z * z) - x2 * z ^ 2 ≠ 0 := by
      rw [hz2]
      exact mul_ne_zero hn (pow_ne_zero _ hz)
    rw [if_neg (fun e => hv (hd.mp e)), if_neg (fun e => hv (hd.mp e))]
    refine jadd_tail (l := (y1 - y2) / (x1 - x2)) (z := z) (x1 := x1) (x2 := x2) (y1 := y1) (y2 := y2) rr (rh.mono (by norm_num)) rxs rys jz
      ?_ (by ring) (by ring) (mul_ne_zero hv hz) ?_ ?_
    · rw [hz2]
      field_simp
    · field_simp
    · refine At.add (l := (y1 - y2) / (x1 - x2)) hat hat2 hx ?_ rfl rfl
      field_simp

theorem jdouble_spec {j : JacobianPoint} {Q : Pt} (hj : JRep j Q) : JRep j.double (Q + Q) := by
  obtain ⟨x, y, z, hat, hz, jx, jy, jz⟩ := hj
  have hy := hat.y_ne
  have h2 := two_ne
  have r1 := (jx.multiply pm_prime jx (by norm_num)).multK pm_prime 3 (by decide)
  have r2 := jz.multiply pm_prime jz (by norm_num)
  have r3 := (r2.multiply pm_prime r2 (by norm_num)).multK pm_prime 0 (by decide)
  have m := (r1.subtractmod pm_prime r3 (by norm_num)).multHalf pm_prime
  have msq := m.multiply pm_prime m (by norm_num)
  have ysq := jy.multiply pm_prime jy (by norm_num)
  have xysq := ysq.multiply pm_prime jx (by norm_num)
  have z3 := jy.multiply pm_prime jz (by norm_num)
  have x3 := (msq.subtractmod pm_prime ((xysq.lshift pm_prime (by norm_num)).fastMod pm_prime) (by norm_num)).fastMod pm_prime
  have y1 := m.multiply pm_prime (xysq.subtractmod pm_prime x3 (by norm_num)) (by norm_num)
  have y2 := ysq.multiply pm_prime ysq (by norm_num)
  have y3 := (y1.subtractmod pm_prime y2 (by norm_num)).fastMod pm_prime
  have e3 : ((3 : UInt8).toNat : Fp) = 3 := by norm_cast
  have e0 : ((0 : UInt8).toNat : Fp) = 0 := by rw [show (0 : UInt8).toNat = 0 from rfl, Nat.cast_zero]
  unfold JacobianPoint.double
  refine ⟨_, _, y * z ^ 3 * z, At.double (l := 3 * x ^ 2 / (2 * y)) hat hy (by field_simp) rfl rfl, ?_, x3.congr ?_, y3.congr ?_, z3⟩
  · exact mul_ne_zero (mul_ne_zero hy (pow_ne_zero _ hz)) hz
  · rw [e3, e0]
    field_simp
    ring
  · rw [e3, e0]
    field_simp
    ring

theorem negWords_eq {a p : BN} (ha : a.length = 9) (hp : p.length = 9) : negWords a p = subtractmod BN.zero a p := by
  match a, ha, p, hp with
  | [_, _, _, _, _, _, _, _, _], _, [_, _, _, _, _, _, _, _, _], _ =>
    rw [negWords, BN.subtractmod]
    simp [BN.zero]

theorem top_limb_lt {a : BN} (ha : Normal a) {k : Nat} (h : limbValue a < 2 ^ 240 * k) : (a.getD 8 0).toNat < k := by
  obtain ⟨low, e, -⟩ := limbValue_split a ha.len
  rw [e] at h
  have : 2 ^ 240 * (a.getD 8 0).toNat < 2 ^ 240 * k := by omega
  exact Nat.lt_of_mul_lt_mul_left this

theorem conditionalNegate_spec (c : Bool) {a : BN} {v : Fp} (ha : Res secpP 2 a v) (hv : v ≠ 0) :
    ∃ r, conditionalNegate (if c then 0xffffffff else 0) a Secp.prime = .ok r ∧ Res secpP 2 r (if c then -v else v) := by
  have hpos := ha.pos_of_ne hv
  have hq := Res.q_lt pm_prime
  have hl := ha.lt
  have top (b : BN) (hb : Normal b) (hb2 : limbValue b < 2 * secpP) : decide (b.getD 8 0 < 0x20000) = true := by
    rw [decide_eq_true_iff, UInt32.lt_iff_toNat_lt]
    refine top_limb_lt hb ?_
    have e : (0x20000 : UInt32).toNat = 2 ^ 17 := rfl
    rw [e, ← Nat.pow_add]
    calc limbValue b < 2 * secpP := hb2
      _ ≤ 2 * 2 ^ 256 := Nat.mul_le_mul_left _ hq.le
  have r1 := (Res.zero pm_prime).subtractmod pm_prime ha (by norm_num)
  have r2 : limbValue (subtractmod BN.zero a Secp.prime) < 2 * secpP := by
    obtain ⟨h1, h2⟩ := subtractmod_le BN.zero a Secp.prime normal_zero ha.normal modulus_prime.normal (by rw [value_prime]; exact hl.le)
      (by rw [limbValue_zero, value_prime]; omega)
    rw [limbValue_zero, value_prime] at h2
    omega
  have hm : List.zipWith (fun n x => (n &&& (if c then 0xffffffff else 0 : UInt32)) ||| (x &&& ~~~ (if c then 0xffffffff else 0 : UInt32))) (negWords a Secp.prime) a
      = if c then subtractmod BN.zero a Secp.prime else a := by
    rw [negWords_eq ha.normal.len modulus_prime.normal.len, ← cmov_eq _ _ _ (r1.normal.len.trans ha.normal.len.symm)]
    rw [BN.cmov]
    cases c <;> rfl
  unfold conditionalNegate
  simp only [hm]
  cases c with
  | false =>
    simp only [Bool.false_eq_true, if_false, top a ha.normal ha.lt]
    exact ⟨a, rfl, ha⟩
  | true =>
    simp only [if_true, top a ha.normal ha.lt, top _ r1.normal r2]
    exact ⟨_, rfl, r1.normal, r2, by rw [r1.val, zero_sub]⟩

/-- Changing the sign of z or of y gives the opposite point. -/
theorem jneg_z {j : JacobianPoint} {P : Pt} (h : JRep j P) (c : Bool) :
    ∃ z, conditionalNegate (if c then 0xffffffff else 0) j.z Secp.prime = .ok z ∧ JRep ⟨j.x, j.y, z⟩ (if c then -P else P) := by
  obtain ⟨x, y, z, hat, hz, jx, jy, jz⟩ := h
  obtain ⟨r, h1, h2⟩ := conditionalNegate_spec c jz hz
  refine ⟨r, h1, ?_⟩
  cases c with
  | false => exact ⟨x, y, z, hat, hz, jx, jy, h2⟩
  | true => exact ⟨x, -y, -z, hat.neg, neg_ne_zero.mpr hz, jx.congr (by ring), jy.congr (by ring), h2⟩

theorem jneg_y {j : JacobianPoint} {P : Pt} (h : JRep j P) (c : Bool) :
    ∃ y, conditionalNegate (if c then 0xffffffff else 0) j.y Secp.prime = .ok y ∧ JRep ⟨j.x, y, j.z⟩ (if c then -P else P) := by
  obtain ⟨x, y, z, hat, hz, jx, jy, jz⟩ := h
  obtain ⟨r, h1, h2⟩ := conditionalNegate_spec c jy (mul_ne_zero hat.y_ne (pow_ne_zero _ hz))
  refine ⟨r, h1, ?_⟩
  cases c with
  | false => exact ⟨x, y, z, hat, hz, jx, h2, jz⟩
  | true => exact ⟨x, -y, z, hat.neg, hz, jx, h2.congr (by simp), jz⟩

end UB
