import Mathlib.Data.ZMod.Basic
import Mathlib.Algebra.Field.ZMod
import Verif.Lemmas.BignumDiv
import Verif.Lemmas.Primes

/-
The bignum operations seen as operations on residues: `Res q m a v` says that the limbs `a` are normalized, stand for a number
below `m * q`, and this number has the residue `v`.
-/

namespace UB
open Spec BN

/-- `P` holds the odd prime `q`. -/
structure PrimeMod (P : BN) (q : Nat) : Prop where
  m : Modulus P
  v : limbValue P = q
  pr : q.Prime
  odd : q % 2 = 1

structure Res (q m : Nat) (a : BN) (v : ZMod q) : Prop where
  normal : Normal a
  lt : limbValue a < m * q
  val : (limbValue a : ZMod q) = v

namespace Res
variable {P : BN} {q : Nat}

theorem mono {m n : Nat} {a : BN} {v : ZMod q} (h : Res q m a v) (hmn : m ≤ n) : Res q n a v :=
  ⟨h.normal, lt_of_lt_of_le h.lt (Nat.mul_le_mul_right _ hmn), h.val⟩

theorem congr {m : Nat} {a : BN} {v w : ZMod q} (h : Res q m a v) (e : v = w) : Res q m a w := e ▸ h

theorem q_lt (hP : PrimeMod P q) : q < 2 ^ 256 := hP.v ▸ hP.m.high
theorem q_low (hP : PrimeMod P q) : 2 ^ 256 - 2 ^ 224 ≤ q := hP.v ▸ hP.m.low

theorem ofMod (hP : PrimeMod P q) {m : Nat} {a : BN} {x : Nat} (h1 : Normal a) (h2 : limbValue a < m * limbValue P)
    (h3 : limbValue a ≡ x [MOD limbValue P]) : Res q m a (x : ZMod q) :=
  ⟨h1, by rw [← hP.v]; exact h2, by rw [← hP.v]; exact (ZMod.natCast_eq_natCast_iff _ _ _).mpr h3⟩

theorem multiply (hP : PrimeMod P q) {m n : Nat} {a b : BN} {v w : ZMod q} (ha : Res q m a v) (hb : Res q n b w) (hmn : m * n ≤ 2 ^ 15) :
    Res q 2 (multiply a b P) (v * w) := by
  have hq := q_lt hP
  obtain ⟨h1, h2, h3⟩ := multiply_spec a b P ha.normal hb.normal hP.m (by
    rw [hP.v]
    have h0 : 0 < q := hP.pr.pos
    have e1 : limbValue a * limbValue b ≤ (m * q) * (n * q) := Nat.mul_le_mul ha.lt.le hb.lt.le
    have e2 : (m * q) * (n * q) = (m * n) * (q * q) := by ring
    have e3 : (m * n) * (q * q) ≤ 2 ^ 15 * (q * q) := Nat.mul_le_mul_right _ hmn
    have e4 : 2 ^ 15 * (q * q) < 2 ^ 15 * (2 ^ 256 * q) := Nat.mul_lt_mul_of_pos_left (Nat.mul_lt_mul_of_pos_right hq h0) (by norm_num)
    have e5 : 2 ^ 15 * (2 ^ 256 * q) = 2 ^ 271 * q := by rw [← mul_assoc, ← Nat.pow_add]
    omega)
  exact (ofMod hP h1 h2 h3).congr (by rw [Nat.cast_mul, ha.val, hb.val])

theorem fastMod (hP : PrimeMod P q) {m : Nat} {a : BN} {v : ZMod q} (ha : Res q m a v) : Res q 2 (fastMod a P) v := by
  obtain ⟨h1, h2, h3⟩ := fastMod_spec a P ha.normal.len hP.m
  refine ⟨h1, hP.v ▸ h3, ?_⟩
  have := ha.val
  rw [← h2, hP.v, Nat.cast_add, Nat.cast_mul, ZMod.natCast_self, mul_zero, add_zero] at this
  exact this

theorem mod (hP : PrimeMod P q) {a : BN} {v : ZMod q} (ha : Res q 2 a v) : Res q 1 (mod a P) v := by
  obtain ⟨h1, h2⟩ := mod_spec a P ha.normal hP.m.normal (hP.v ▸ ha.lt)
  refine ⟨h1, ?_, ?_⟩
  · rw [h2, hP.v, one_mul]
    exact Nat.mod_lt _ hP.pr.pos
  · rw [h2, hP.v, ZMod.natCast_mod]
    exact ha.val

theorem subtractmod (hP : PrimeMod P q) {m : Nat} {a b : BN} {v w : ZMod q} (ha : Res q m a v) (hb : Res q 2 b w) (hm : m ≤ 2 ^ 12) :
    Res q (m + 2) (subtractmod a b P) (v - w) := by
  have hq := q_lt hP
  have h0 : m * q ≤ 2 ^ 12 * 2 ^ 256 := Nat.mul_le_mul hm hq.le
  have hal := ha.lt
  obtain ⟨h1, h2⟩ := subtractmod_le a b P ha.normal hb.normal hP.m.normal (by rw [hP.v]; exact hb.lt.le) (by rw [hP.v]; omega)
  rw [hP.v] at h2
  refine ⟨h1, ?_, ?_⟩
  · have : (m + 2) * q = m * q + 2 * q := by ring
    omega
  · have e := congrArg (Nat.cast : Nat → ZMod q) h2
    rw [Nat.cast_add, Nat.cast_add, Nat.cast_mul, ZMod.natCast_self, mul_zero, add_zero, ha.val, hb.val] at e
    exact eq_sub_of_add_eq e

theorem subtractmod_pos (hP : PrimeMod P q) {m : Nat} {a b : BN} {v w : ZMod q} (ha : Res q m a v) (hb : Res q 2 b w) (hm : m ≤ 2 ^ 12) :
    0 < limbValue (BN.subtractmod a b P) := by
  have hq := q_lt hP
  have h0 : m * q ≤ 2 ^ 12 * 2 ^ 256 := Nat.mul_le_mul hm hq.le
  have hal := ha.lt
  obtain ⟨h1, h2⟩ := subtractmod_le a b P ha.normal hb.normal hP.m.normal (by rw [hP.v]; exact hb.lt.le) (by rw [hP.v]; omega)
  rw [hP.v] at h2
  have := hb.lt
  omega

theorem add (hP : PrimeMod P q) {m n : Nat} {a b : BN} {v w : ZMod q} (ha : Res q m a v) (hb : Res q n b w) (hmn : m + n ≤ 2 ^ 13) :
    Res q (m + n) (add a b) (v + w) := by
  have hq := q_lt hP
  obtain ⟨h1, h2⟩ := add_spec a b ha.normal hb.normal
  have e : (m + n) * q = m * q + n * q := by ring
  have e2 : (m + n) * q ≤ 2 ^ 13 * 2 ^ 256 := Nat.mul_le_mul hmn hq.le
  have l1 := ha.lt
  have l2 := hb.lt
  rw [Nat.mod_eq_of_lt (show limbValue a + limbValue b < 2 ^ 270 by omega)] at h2
  exact ⟨h1, by omega, by rw [h2, Nat.cast_add, ha.val, hb.val]⟩

theorem addmod (hP : PrimeMod P q) {m n : Nat} {a b : BN} {v w : ZMod q} (ha : Res q m a v) (hb : Res q n b w) :
    Res q 2 (addmod a b P) (v + w) := by
  obtain ⟨h1, h2, h3⟩ := addmod_spec a b P ha.normal hb.normal hP.m
  exact (ofMod hP h1 h2 h3).congr (by rw [Nat.cast_add, ha.val, hb.val])

theorem multK (hP : PrimeMod P q) {m : Nat} {a : BN} {v : ZMod q} (ha : Res q m a v) (k : UInt8) (hk : k.toNat ≤ 4) :
    Res q 2 (multK a k P) (k.toNat * v) := by
  obtain ⟨h1, h2, h3⟩ := multK_spec a k P ha.normal hk hP.m
  exact (ofMod hP h1 h2 h3).congr (by rw [Nat.cast_mul, ha.val])

theorem two_ne (hP : PrimeMod P q) : (2 : ZMod q) ≠ 0 := by
  intro h
  have h' : ((2 : Nat) : ZMod q) = 0 := by exact_mod_cast h
  rw [ZMod.natCast_eq_zero_iff] at h'
  have := Nat.le_of_dvd (by norm_num) h'
  have := q_low hP
  omega

theorem multHalf (hP : PrimeMod P q) [Fact q.Prime] {m : Nat} {a : BN} {v : ZMod q} (ha : Res q m a v) :
    Res q ((m + 2) / 2) (multHalf a P) (v / 2) := by
  obtain ⟨h1, h2⟩ := multHalf_spec a P ha.normal hP.m.normal (by rw [hP.v]; exact hP.odd)
  have hl := ha.lt
  refine ⟨h1, ?_, ?_⟩
  · have h3 : 2 * limbValue (BN.multHalf a P) < (m + 1) * q := by
      rw [h2, hP.v, Nat.add_mul, one_mul]
      split
      · omega
      · have := hP.pr.pos
        omega
    have h4 : (m + 1) * q ≤ (2 * ((m + 2) / 2)) * q := Nat.mul_le_mul_right _ (by omega)
    rw [Nat.mul_assoc] at h4
    omega
  · rw [eq_div_iff (two_ne hP)]
    have e := congrArg (Nat.cast : Nat → ZMod q) h2
    rw [Nat.cast_add, ha.val] at e
    have : ((if limbValue a % 2 = 1 then limbValue P else 0 : Nat) : ZMod q) = 0 := by
      split
      · rw [hP.v, ZMod.natCast_self]
      · simp
    rw [this, add_zero] at e
    push_cast at e
    rw [← e]
    ring

theorem lshift (hP : PrimeMod P q) {m : Nat} {a : BN} {v : ZMod q} (ha : Res q m a v) (hm : m ≤ 2 ^ 12) :
    Res q (2 * m) (lshift a) (2 * v) := by
  have hq := q_lt hP
  obtain ⟨h1, h2⟩ := lshift_spec a ha.normal
  have l1 := ha.lt
  have e2 : m * q ≤ 2 ^ 12 * 2 ^ 256 := Nat.mul_le_mul hm hq.le
  rw [Nat.mod_eq_of_lt (show 2 * limbValue a < 2 ^ 270 by omega)] at h2
  refine ⟨h1, by rw [h2, Nat.mul_assoc]; omega, ?_⟩
  rw [h2, Nat.cast_mul, ha.val]
  norm_num

theorem subi_zero (hP : PrimeMod P q) {m : Nat} {a : BN} {v : ZMod q} (ha : Res q m a v) (hm : m ≤ 2 ^ 12) :
    Res q (m + 1) (subi a 0 P) v := by
  have hq := q_lt hP
  obtain ⟨h1, h2⟩ := subi_spec a 0 P ha.normal hP.m.normal (by simp)
  have l1 := ha.lt
  have e2 : m * q ≤ 2 ^ 12 * 2 ^ 256 := Nat.mul_le_mul hm hq.le
  have e3 : (m + 1) * q = m * q + q := by ring
  have e0 : (0 : UInt32).toNat = 0 := rfl
  rw [e0, Nat.sub_zero, hP.v, Nat.mod_eq_of_lt (show limbValue a + q < 2 ^ 270 by omega)] at h2
  exact ⟨h1, by omega, by rw [h2, Nat.cast_add, ZMod.natCast_self, add_zero, ha.val]⟩

theorem inverse (hP : PrimeMod P q) [Fact q.Prime] {m : Nat} {a : BN} {v : ZMod q} (ha : Res q m a v) (hv : v ≠ 0) :
    ∃ r, inverse a P = .ok r ∧ Res q 1 r v⁻¹ := by
  have hc : Nat.Coprime (limbValue a) (limbValue P) := by
    rw [hP.v, Nat.coprime_comm]
    refine (Nat.Prime.coprime_iff_not_dvd hP.pr).mpr fun hd => hv ?_
    rw [← ha.val, ZMod.natCast_eq_zero_iff]
    exact hd
  obtain ⟨r, h1, h2, h3, h4⟩ := inverse_spec a P ha.normal.len hP.m (by rw [hP.v]; exact hP.odd) hc
  refine ⟨r, h1, h2, by rw [one_mul, ← hP.v]; exact h3, ?_⟩
  rw [hP.v] at h4
  have e := (ZMod.natCast_eq_natCast_iff _ _ _).mpr h4
  rw [Nat.cast_mul, ha.val, Nat.cast_one] at e
  exact eq_inv_of_mul_eq_one_left e

/-- A number below the modulus is its residue. -/
theorem eq_of_val {a b : BN} {v : ZMod q} (ha : Res q 1 a v) (hb : Res q 1 b v) : a = b := by
  refine ha.normal.inj hb.normal ?_
  have e := ha.val.trans hb.val.symm
  have l1 := ha.lt
  have l2 := hb.lt
  rw [one_mul] at l1 l2
  rw [ZMod.natCast_eq_natCast_iff', Nat.mod_eq_of_lt l1, Nat.mod_eq_of_lt l2] at e
  exact e

theorem isEqual {a b : BN} {v w : ZMod q} (ha : Res q 1 a v) (hb : Res q 1 b w) : isEqual a b = true ↔ v = w := by
  rw [isEqual_iff ha.normal hb.normal]
  constructor
  · intro h; rw [← ha.val, ← hb.val, h]
  · intro h; subst h; rw [eq_of_val ha hb]

theorem limb_zero {a : BN} {v : ZMod q} (ha : Res q 1 a v) : limbValue a = 0 ↔ v = 0 := by
  rw [← ha.val, ZMod.natCast_eq_zero_iff]
  constructor
  · intro h; rw [h]; exact dvd_zero _
  · intro h
    have l1 := ha.lt
    rw [one_mul] at l1
    exact Nat.eq_zero_of_dvd_of_lt h l1

theorem isZero {a : BN} {v : ZMod q} (ha : Res q 1 a v) : isZero a = true ↔ v = 0 := by rw [isZero_iff, limb_zero ha]

theorem pos_of_ne {m : Nat} {a : BN} {v : ZMod q} (ha : Res q m a v) (hv : v ≠ 0) : 0 < limbValue a := by
  rcases Nat.eq_zero_or_pos (limbValue a) with h | h
  · exact absurd (by rw [← ha.val, h, Nat.cast_zero]) hv
  · exact h

theorem zero (hP : PrimeMod P q) : Res q 1 BN.zero 0 :=
  ⟨normal_zero, by rw [limbValue_zero, one_mul]; exact hP.pr.pos, by rw [limbValue_zero, Nat.cast_zero]⟩

/-- The residue of given limbs. -/
theorem self {a : BN} (h : Normal a) (hl : limbValue a < q) : Res q 1 a (limbValue a : ZMod q) :=
  ⟨h, by rw [one_mul]; exact hl, rfl⟩

/-- A positive multiple of the modulus is normalized by `bn_fast_mod` to the modulus itself. -/
theorem fastMod_multiple (hP : PrimeMod P q) {m : Nat} {a : BN} (ha : Res q m a 0) (h0 : 0 < limbValue a) (hm : m ≤ 2 ^ 12) :
    BN.fastMod a P = P := by
  obtain ⟨h1, h2, h3⟩ := fastMod_spec a P ha.normal.len hP.m
  have hr := fastMod hP ha
  refine h1.inj hP.m.normal ?_
  have hd : q ∣ limbValue (BN.fastMod a P) := by rw [← ZMod.natCast_eq_zero_iff]; exact hr.val
  have hlt := hr.lt
  rw [hP.v] at *
  obtain ⟨c, hc⟩ := hd
  have hqp := hP.pr.pos
  have hc2 : c < 2 := by
    rw [hc, Nat.mul_comm] at hlt
    exact Nat.lt_of_mul_lt_mul_right hlt
  rcases Nat.lt_or_ge c 1 with h | h
  · -- the result would be zero: the number is `t * q` with `t = top limb >> 16`, but `(t q) >> 256 < t`
    have hc0 : c = 0 := by omega
    rw [hc, hc0, Nat.mul_zero, Nat.zero_add] at h2
    exfalso
    set t := (a.getD 8 0).toNat / 2 ^ 16 with ht
    have htop : limbValue a ≥ 2 ^ 240 * (a.getD 8 0).toNat := by
      obtain ⟨low, e1, -⟩ := limbValue_split a ha.normal.len
      rw [e1]
      omega
    have hq := q_lt hP
    have ht1 : t * 2 ^ 16 ≤ (a.getD 8 0).toNat := by rw [ht]; exact Nat.div_mul_le_self _ _
    have h5 : 2 ^ 256 * t ≤ limbValue a := by
      calc 2 ^ 256 * t = 2 ^ 240 * (t * 2 ^ 16) := by rw [Nat.mul_comm t, ← Nat.mul_assoc, ← Nat.pow_add]
        _ ≤ 2 ^ 240 * (a.getD 8 0).toNat := Nat.mul_le_mul_left _ ht1
        _ ≤ _ := htop
    rw [← h2] at h5
    have htp : 0 < t := by
      rcases Nat.eq_zero_or_pos t with h | h
      · rw [h] at h2; omega
      · exact h
    have : t * q < t * 2 ^ 256 := Nat.mul_lt_mul_of_pos_left hq htp
    omega
  · have : c = 1 := by omega
    rw [hc, this, Nat.mul_one]

end Res

end UB
