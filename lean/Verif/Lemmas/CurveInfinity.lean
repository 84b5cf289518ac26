import Verif.Lemmas.CurveMul

/-
`point_multiply` is not made for the point at infinity: the z coordinate becomes 0 and cannot be inverted.
-/

namespace UB
open Spec BN

attribute [local irreducible] secpP secpN BN.multiply BN.fastMod BN.mod BN.subtractmod BN.multK BN.addmod BN.inverse BN.lshift BN.subi BN.add
  BN.multHalf BN.cmov BN.isEqual BN.isZero

/-- Jacobian coordinates below twice the prime with z = 0. -/
def JZero (j : JacobianPoint) : Prop := ∃ x y : Fp, Res secpP 2 j.x x ∧ Res secpP 2 j.y y ∧ Res secpP 2 j.z 0

theorem jdouble_zero {j : JacobianPoint} {x y z : Fp} (jx : Res secpP 2 j.x x) (jy : Res secpP 2 j.y y) (jz : Res secpP 2 j.z z) (h : y * z = 0) :
    JZero j.double := by
  have r1 := (jx.multiply pm_prime jx (by norm_num)).multK pm_prime 3 (by decide)
  have r2 := jz.multiply pm_prime jz (by norm_num)
  have r3 := (r2.multiply pm_prime r2 (by norm_num)).multK pm_prime 0 (by decide)
  have m := (r1.subtractmod pm_prime r3 (by norm_num)).multHalf pm_prime
  have msq := m.multiply pm_prime m (by norm_num)
  have ysq := jy.multiply pm_prime jy (by norm_num)
  have xysq := ysq.multiply pm_prime jx (by norm_num)
  have z3 := jy.multiply pm_prime jz (by norm_num)
  have x3 := (msq.subtractmod pm_prime ((xysq.lshift pm_prime (by norm_num)).fastMod pm_prime) (by norm_num)).fastMod pm_prime
  have y1 := m.multiply pm_prime (xysq.subtractmod pm_prime x3 (by norm_num)) (by norm_num)
  have y2 := ysq.multiply pm_prime ysq (by norm_num)
  have y3 := (y1.subtractmod pm_prime y2 (by norm_num)).fastMod pm_prime
  unfold JacobianPoint.double
  exact ⟨_, _, x3, y3, z3.congr h⟩

theorem JZero.double {j : JacobianPoint} (h : JZero j) : JZero j.double := by
  obtain ⟨x, y, jx, jy, jz⟩ := h
  exact jdouble_zero jx jy jz (mul_zero _)

theorem jadd_zero {c : CurvePoint} {x y z : BN} {x1 y1 x2 y2 : Fp} (rx : Res secpP 1 c.x x1) (ry : Res secpP 1 c.y y1)
    (jx : Res secpP 2 x x2) (jy : Res secpP 2 y y2) (jz : Res secpP 4 z 0) : JZero (JacobianPoint.add c ⟨x, y, z⟩) := by
  have r1 := jz.multiply pm_prime jz (by norm_num)
  have r2 := r1.multiply pm_prime jz (by norm_num)
  have rX := rx.multiply pm_prime r1 (by norm_num)
  have rY := ry.multiply pm_prime r2 (by norm_num)
  have rs := rX.subtractmod pm_prime jx (by norm_num)
  have rxs := rX.add pm_prime jx (by norm_num)
  have rys := rY.add pm_prime jy (by norm_num)
  have rr := rY.subtractmod pm_prime jy (by norm_num)
  have rd := (jx.multiply pm_prime jx (by norm_num)).multK pm_prime 3 (by decide)
  have rh := rs.fastMod pm_prime
  have l1 := rd.normal.len.trans rr.normal.len.symm
  have l2 := rys.normal.len.trans rh.normal.len.symm
  unfold JacobianPoint.add
  simp only
  rw [cmov_eq _ _ _ l1, cmov_eq _ _ _ l2]
  generalize BN.isEqual (fastMod (subtractmod (multiply c.x (multiply z z Secp.prime) Secp.prime) x Secp.prime) Secp.prime) Secp.prime = e
  have tail (R H : BN) (r h : Fp) (hR : Res secpP 4 R r) (hH : Res secpP 4 H h) :
      JZero (let xz := BN.add (multiply c.x (multiply z z Secp.prime) Secp.prime) x
        let yz := BN.add (multiply c.y (multiply (multiply z z Secp.prime) z Secp.prime) Secp.prime) y
        let hsqx := multiply H H Secp.prime
        let hcby := multiply hsqx H Secp.prime
        let hsqx := multiply xz hsqx Secp.prime
        let hcby := multiply yz hcby Secp.prime
        let z := multiply H z Secp.prime
        let x := multiply R R Secp.prime
        let x := fastMod (subtractmod x hsqx Secp.prime) Secp.prime
        let y := subtractmod hsqx x Secp.prime
        let y := subtractmod y x Secp.prime
        let y := multiply R y Secp.prime
        let y := subtractmod y hcby Secp.prime
        let y := fastMod (multHalf y Secp.prime) Secp.prime
        ⟨x, y, z⟩) := by
    have a1 := hH.multiply pm_prime hH (by norm_num)
    have a2 := a1.multiply pm_prime hH (by norm_num)
    have a3 := rxs.multiply pm_prime a1 (by norm_num)
    have a4 := rys.multiply pm_prime a2 (by norm_num)
    have a5 := hH.multiply pm_prime jz (by norm_num)
    have a6 := hR.multiply pm_prime hR (by norm_num)
    have a7 := (a6.subtractmod pm_prime a3 (by norm_num)).fastMod pm_prime
    have a8 := (a3.subtractmod pm_prime a7 (by norm_num)).subtractmod pm_prime a7 (by norm_num)
    have a9 := (hR.multiply pm_prime a8 (by norm_num)).subtractmod pm_prime a4 (by norm_num)
    have a10 := (a9.multHalf pm_prime).fastMod pm_prime
    exact ⟨_, _, a7, a10, a5.congr (mul_zero _)⟩
  cases e with
  | true =>
    rw [if_pos rfl, if_pos rfl]
    exact tail _ _ _ _ (rd.mono (by norm_num)) rys
  | false =>
    rw [if_neg Bool.false_ne_true, if_neg Bool.false_ne_true]
    exact tail _ _ _ _ rr (rh.mono (by norm_num))

theorem conditionalNegate_zero {a r : BN} (ha : Res secpP 2 a 0) (c : Bool)
    (h : conditionalNegate (if c then 0xffffffff else 0) a Secp.prime = .ok r) : Res secpP 4 r 0 := by
  have r1 := (Res.zero pm_prime).subtractmod pm_prime ha (by norm_num)
  have hm : List.zipWith (fun n x => (n &&& (if c then 0xffffffff else 0 : UInt32)) ||| (x &&& ~~~ (if c then 0xffffffff else 0 : UInt32))) (negWords a Secp.prime) a
      = if c then subtractmod BN.zero a Secp.prime else a := by
    rw [negWords_eq ha.normal.len modulus_prime.normal.len, ← cmov_eq _ _ _ (r1.normal.len.trans ha.normal.len.symm)]
    rw [BN.cmov]
    cases c <;> rfl
  unfold conditionalNegate at h
  simp only [hm] at h
  have e : r = if c then subtractmod BN.zero a Secp.prime else a := by
    generalize (if c then subtractmod BN.zero a Secp.prime else a) = w at h ⊢
    unfold BN.require at h
    split at h
    · rw [C.bind_ok] at h
      split at h
      · rw [C.bind_ok, C.pure_eq, C.ok.injEq] at h; exact h.symm
      · rw [C.bind_ub] at h; cases h
    · rw [C.bind_ub] at h; cases h
  rw [e]
  cases c with
  | true => rw [if_pos rfl]; exact (r1.mono (by norm_num)).congr (by ring)
  | false => rw [if_neg Bool.false_ne_true]; exact ha.mono (by norm_num)

theorem toCurve_zero {x y z : BN} (hz : Res secpP 4 z 0) : JacobianPoint.toCurve ⟨x, y, z⟩ = .ub := by
  have h : inverse z Secp.prime = .ub := by
    refine C49_zero_out_of_bounds z Secp.prime hz.normal.len modulus_prime (by rw [value_prime]; exact pm_prime.odd) ?_
    rw [value_prime]
    exact (ZMod.natCast_eq_zero_iff _ _).mp hz.val
  unfold JacobianPoint.toCurve
  simp only [h, C.bind_ub]

theorem sign_word (w : UInt32) (hw : w.toNat < 32) : ∃ b : Bool, (digitBits w).1 = if b then 0 else 0xffffffff := by
  obtain ⟨d1, -, -, -⟩ := digitBits_spec w hw
  refine ⟨decide (16 ≤ w.toNat), ?_⟩
  rw [d1]
  by_cases c : 16 ≤ w.toNat <;> simp only [c, if_true, if_false, decide_true, decide_false, Bool.false_eq_true]

theorem and31_lt (w : UInt32) : (w &&& 31).toNat < 32 := by
  rw [UInt32.toNat_and]
  exact lt_of_le_of_lt Nat.and_le_right (by decide)

theorem pointMultiplyLoop_zero (a : BN) (l : List CurvePoint) (hl : ∀ d ∈ l, d = CurvePoint.infinity) :
    ∀ (i : Nat) (j : JacobianPoint) (b : Bool) (idx ashift : Nat) (x y z : Fp), Res secpP 2 j.x x → Res secpP 2 j.y y → Res secpP 2 j.z z → y * z = 0 → (i = 0 → z = 0) →
      pointMultiplyLoop a l i j (if b then 0 else 0xffffffff) idx ashift = .ub := by
  intro i
  induction i with
  | zero =>
    intro j b idx ashift x y z jx jy jz _ hz
    obtain rfl := hz rfl
    rw [pointMultiplyLoop]
    have : (if b then 0 else 0xffffffff : UInt32) = if (!b) = true then 0xffffffff else 0 := by cases b <;> rfl
    rw [this]
    cases hc : conditionalNegate (if (!b) = true then 0xffffffff else 0) j.z Secp.prime with
    | ub => rfl
    | ok z => rw [C.bind_ok]; exact toCurve_zero (conditionalNegate_zero jz _ hc)
  | succ i ih =>
    intro j b idx ashift x0 y0 z0 jx0 jy0 jz0 hyz _
    obtain ⟨x, y, jx, jy, jz⟩ := (jdouble_zero jx0 jy0 jz0 hyz).double.double.double
    obtain ⟨b', hb'⟩ := sign_word ((nextWindow a idx ashift).1 &&& 31) (and31_lt _)
    have hx : ((if b then 0 else 0xffffffff : UInt32) ^^^ (digitBits ((nextWindow a idx ashift).1 &&& 31)).1) = if (b != b') = true then 0xffffffff else 0 := by
      rw [hb']
      cases b <;> cases b' <;> rfl
    rw [pointMultiplyLoop]
    simp only [hx]
    cases hc : conditionalNegate (if (b != b') = true then 0xffffffff else 0) j.double.double.double.double.z Secp.prime with
    | ub => rfl
    | ok z =>
      rw [C.bind_ok]
      cases he : entry l ((digitBits ((nextWindow a idx ashift).1 &&& 31)).2 >>> 1).toNat with
      | ub => rfl
      | ok p =>
        have hp : p = CurvePoint.infinity := by
          refine hl p ?_
          unfold entry at he
          split at he
          · rename_i q hq
            cases he
            exact List.mem_of_getElem? hq
          · cases he
        subst hp
        rw [C.bind_ok, hb']
        obtain ⟨x', y', jx', jy', jz'⟩ := jadd_zero (c := CurvePoint.infinity) (Res.zero pm_prime) (Res.zero pm_prime) jx jy (conditionalNegate_zero jz _ hc)
        exact ih _ b' _ _ x' y' 0 jx' jy' jz' (mul_zero _) fun _ => rfl

theorem infinity_isInfinity : CurvePoint.infinity.isInfinity = true := (isInfinity_iff isPoint_infinity).mpr rfl

theorem oddMultiples_infinity : ∀ n, oddMultiples CurvePoint.infinity n CurvePoint.infinity = .ok (List.replicate (n + 1) CurvePoint.infinity)
  | 0 => rfl
  | n + 1 => by
    rw [oddMultiples, CurvePoint.add, if_pos infinity_isInfinity, C.bind_ok, oddMultiples_infinity n, C.bind_ok]
    rfl

theorem pointMultiply_infinity (k : BN) (hk : Normal k) (hl : limbValue k < secpN) (h0 : limbValue k ≠ 0)
    (z : BN) (hz : Normal z) (hzl : limbValue z < secpP) : pointMultiply k CurvePoint.infinity z = .ub := by
  obtain ⟨a1, a2, a3, a4⟩ := recode_facts k hk hl
  have hless : BN.isLess k Secp.order = true := (isLess_iff hk modulus_order.normal).mpr (by rw [value_order]; exact hl)
  unfold pointMultiply
  simp only [hless]
  generalize recode k Secp.order = a at *
  cases ho : (a.headD 0 &&& 1 != 0) with
  | false => rfl
  | true =>
  simp only [BN.require, if_true, C.bind_ok]
  rw [if_neg (by rw [isZero_iff]; exact h0)]
  rw [CurvePoint.double, if_pos infinity_isInfinity, C.bind_ok, oddMultiples_infinity, C.bind_ok]
  cases he : entry (List.replicate (7 + 1) CurvePoint.infinity) ((digitBits (a.getD 8 0 >>> 12)).2 >>> 1).toNat with
  | ub => rfl
  | ok p =>
    have hp : p = CurvePoint.infinity := by
      unfold entry at he
      split at he
      · rename_i q hq
        cases he
        exact List.eq_of_mem_replicate (List.mem_of_getElem? hq)
      · cases he
    subst hp
    rw [C.bind_ok]
    have htop : (a.getD 8 0 >>> 12).toNat = limbValue a / 16 ^ 63 := by
      have e1 : (a.getD 8 0 >>> 12).toNat = (a.getD 8 0).toNat / 2 ^ 12 := toNat_shr _ 12 (by norm_num)
      have e2 := limbValue_div a a1.small 8
      rw [limbValue_drop a 8 (by rw [a1.len]; norm_num), List.drop_eq_nil_of_le (by rw [a1.len]), limbValue, Nat.mul_zero, Nat.add_zero] at e2
      rw [e1, ← e2, Nat.div_div_eq_div_mul, ← Nat.pow_add, show (16 : Nat) = 2 ^ 4 by norm_num, ← Nat.pow_mul]
    have hw32 : (a.getD 8 0 >>> 12).toNat < 32 := by
      rw [htop, Nat.div_lt_iff_lt_mul (by positivity), two57]
      exact a3
    obtain ⟨b, hb⟩ := sign_word _ hw32
    rw [hb]
    have rz := Res.self (q := secpP) hz hzl
    have z0 := Res.zero pm_prime
    have r1 := rz.multiply pm_prime rz (by norm_num)
    have r2 := rz.multiply pm_prime r1 (by norm_num)
    have jx := z0.multiply pm_prime r1 (by norm_num)
    have jy := z0.multiply pm_prime r2 (by norm_num)
    exact pointMultiplyLoop_zero a _ (fun d hd => List.eq_of_mem_replicate hd) 63 _ b 8 12 _ _ _ jx jy (rz.mono (by norm_num)) (by rw [zero_mul, zero_mul])
      (fun h => absurd h (by norm_num))

end UB
