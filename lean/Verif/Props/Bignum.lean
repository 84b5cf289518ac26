import Mathlib.FieldTheory.Finite.Basic
import Verif.Lemmas.BignumDiv
import Verif.Lemmas.Primes
import Verif.Model.Secp256k1

/-
Claims C47, C48 and C49: the 256-bit arithmetic (utility/trezor/bignum.c).
Numbers are judged by `limbValue` and `Normal` (Spec/Bignum.lean); byte strings by `beValue` and `leValue` (Spec/Bytes.lean).
-/

namespace UB
open Spec BN

/-! ### secp256k1 is one of the curves the arithmetic is made for -/

theorem value_prime : limbValue Secp.prime = secpP := by decide +kernel
theorem value_order : limbValue Secp.order = secpN := by decide +kernel
theorem value_gx : limbValue Secp.gx = secpGx := by decide +kernel
theorem value_gy : limbValue Secp.gy = secpGy := by decide +kernel
theorem value_orderHalf : limbValue Secp.orderHalf = (secpN - 1) / 2 := by decide +kernel

theorem modulus_prime : Modulus Secp.prime := ⟨⟨rfl, by decide⟩, by decide +kernel, by decide +kernel⟩
theorem modulus_order : Modulus Secp.order := ⟨⟨rfl, by decide⟩, by decide +kernel, by decide +kernel⟩
theorem normal_gx : Normal Secp.gx := ⟨rfl, by decide⟩
theorem normal_gy : Normal Secp.gy := ⟨rfl, by decide⟩
theorem normal_orderHalf : Normal Secp.orderHalf := ⟨rfl, by decide⟩

/-! ### C47 -/

/-- `bn_read_be` gives nine limbs below 2^30 whose value is the number the bytes stand for. -/
theorem C47_read_be (b : Bytes) (h : b.length = 32) : Normal (readBE b) ∧ limbValue (readBE b) = beValue b := readBE_spec b h

/-- `bn_read_le` likewise. -/
theorem C47_read_le (b : Bytes) (h : b.length = 32) : Normal (readLE b) ∧ limbValue (readLE b) = leValue b := readLE_spec b h

/-- Writing back what was read gives the same bytes. -/
theorem C47_roundtrip_be (b : Bytes) (h : b.length = 32) : writeBE (readBE b) = b := by
  obtain ⟨h1, h2⟩ := readBE_spec b h
  have hb : beValue b < 2 ^ 256 := by have := beValue_lt b; rw [h] at this; calc beValue b < _ := this
                                      _ = 2 ^ 256 := by norm_num
  obtain ⟨h3, h4⟩ := writeBE_spec (readBE b) h1 (by rw [h2]; exact hb)
  exact beValue_inj (by rw [h3, h]) (by rw [h4, h2])

theorem C47_roundtrip_le (b : Bytes) (h : b.length = 32) : writeLE (readLE b) = b := by
  obtain ⟨h1, h2⟩ := readLE_spec b h
  have hb : leValue b < 2 ^ 256 := by
    have := beValue_lt b.reverse
    rw [List.length_reverse, h] at this
    rw [leValue]
    calc beValue b.reverse < _ := this
      _ = 2 ^ 256 := by norm_num
  obtain ⟨h3, h4⟩ := writeBE_spec (readLE b) h1 (by rw [h2]; exact hb)
  have h5 : writeBE (readLE b) = b.reverse := beValue_inj (by rw [h3, List.length_reverse, h]) (by rw [h4, h2, leValue])
  rw [writeLE_eq, h5, List.reverse_reverse]

/-- Every number below 2^256 is written as its 32 bytes, highest first, and reading them gives the number back. -/
theorem C47_write_be (a : BN) (h : Normal a) (hv : limbValue a < 2 ^ 256) :
    (writeBE a).length = 32 ∧ beValue (writeBE a) = limbValue a ∧ readBE (writeBE a) = a := by
  obtain ⟨h1, h2⟩ := writeBE_spec a h hv
  obtain ⟨h3, h4⟩ := readBE_spec _ h1
  exact ⟨h1, h2, h3.inj h (by rw [h4, h2])⟩

theorem C47_write_le (a : BN) (h : Normal a) (hv : limbValue a < 2 ^ 256) :
    (writeLE a).length = 32 ∧ leValue (writeLE a) = limbValue a ∧ readLE (writeLE a) = a := by
  obtain ⟨h1, h2⟩ := writeBE_spec a h hv
  have l1 : (writeLE a).length = 32 := by rw [writeLE_eq, List.length_reverse, h1]
  have l2 : leValue (writeLE a) = limbValue a := by rw [writeLE_eq, leValue, List.reverse_reverse, h2]
  obtain ⟨h3, h4⟩ := readLE_spec _ l1
  exact ⟨l1, l2, h3.inj h (by rw [h4, l2])⟩

/-- A normalized number is determined by its value: no two different limb arrays stand for the same number. -/
theorem C47_normal_unique (a b : BN) (ha : Normal a) (hb : Normal b) (h : limbValue a = limbValue b) : a = b := ha.inj hb h

example : ∃ b : Bytes, b.length = 32 ∧ beValue b = secpP ∧ writeBE (readBE b) = b ∧ readBE b = Secp.prime :=
  ⟨writeBE Secp.prime, by decide +kernel, by decide +kernel, C47_roundtrip_be _ (by decide +kernel), by decide +kernel⟩

/-! ### C48 -/

/-- `bn_add` of two numbers whose sum fits. -/
theorem C48_add (a b : BN) (ha : Normal a) (hb : Normal b) (h : limbValue a + limbValue b < 2 ^ 270) :
    Normal (add a b) ∧ limbValue (add a b) = limbValue a + limbValue b := by
  obtain ⟨h1, h2⟩ := add_spec a b ha hb
  exact ⟨h1, by rw [h2, Nat.mod_eq_of_lt h]⟩

/-- `bn_subtract` of a number that is not larger. -/
theorem C48_subtract (a b : BN) (ha : Normal a) (hb : Normal b) (h : limbValue b ≤ limbValue a) :
    Normal (subtract a b) ∧ limbValue (subtract a b) = limbValue a - limbValue b := subtract_le a b ha hb h

/-- `bn_addmod`: below twice the modulus, with the residue of the sum; for any normalized summands. -/
theorem C48_addmod (a b p : BN) (ha : Normal a) (hb : Normal b) (hp : Modulus p) :
    Normal (addmod a b p) ∧ limbValue (addmod a b p) < 2 * limbValue p ∧
      limbValue (addmod a b p) ≡ limbValue a + limbValue b [MOD limbValue p] := addmod_spec a b p ha hb hp

/-- `bn_subtractmod`: `a - b` plus twice the modulus, exactly, if `b` is at most twice the modulus. -/
theorem C48_subtractmod (a b p : BN) (ha : Normal a) (hb : Normal b) (hp : Modulus p) (h : limbValue b ≤ 2 * limbValue p)
    (h' : limbValue a + 2 * limbValue p < 2 ^ 270) :
    Normal (subtractmod a b p) ∧ limbValue (subtractmod a b p) + limbValue b = limbValue a + 2 * limbValue p :=
  subtractmod_le a b p ha hb hp.normal h h'

/-- `bn_mult_half`: twice the result has the residue of the argument, and the result is at most half of argument plus modulus. -/
theorem C48_mult_half (x p : BN) (hx : Normal x) (hp : Modulus p) (ho : limbValue p % 2 = 1) :
    Normal (multHalf x p) ∧ 2 * limbValue (multHalf x p) ≤ limbValue x + limbValue p ∧
      2 * limbValue (multHalf x p) ≡ limbValue x [MOD limbValue p] := by
  obtain ⟨h1, h2⟩ := multHalf_spec x p hx hp.normal ho
  refine ⟨h1, by rw [h2]; split <;> omega, ?_⟩
  rw [h2]
  split
  · rw [Nat.ModEq, Nat.add_mod_right]
  · rfl

/-- `bn_mult_k` for the multipliers it documents (0 to 4). -/
theorem C48_mult_k (x : BN) (k : UInt8) (p : BN) (hx : Normal x) (hk : k.toNat ≤ 4) (hp : Modulus p) :
    Normal (multK x k p) ∧ limbValue (multK x k p) < 2 * limbValue p ∧
      limbValue (multK x k p) ≡ k.toNat * limbValue x [MOD limbValue p] := multK_spec x k p hx hk hp

/-- `bn_multiply`: below twice the modulus, with the residue of the product; for all factors whose product is below 2^271 times the modulus. -/
theorem C48_multiply (k x p : BN) (hk : Normal k) (hx : Normal x) (hp : Modulus p) (h : limbValue k * limbValue x < 2 ^ 271 * limbValue p) :
    Normal (multiply k x p) ∧ limbValue (multiply k x p) < 2 * limbValue p ∧
      limbValue (multiply k x p) ≡ limbValue k * limbValue x [MOD limbValue p] := multiply_spec k x p hk hx hp h

/-- The documented range of `bn_multiply` (both factors at most 180 times the modulus) is inside the range of the previous theorem. -/
theorem C48_multiply_documented (k x p : BN) (hk : Normal k) (hx : Normal x) (hp : Modulus p) (h1 : limbValue k ≤ 180 * limbValue p)
    (h2 : limbValue x ≤ 180 * limbValue p) :
    Normal (multiply k x p) ∧ limbValue (multiply k x p) < 2 * limbValue p ∧
      limbValue (multiply k x p) ≡ limbValue k * limbValue x [MOD limbValue p] := by
  have n1 := hp.low
  exact multiply_spec k x p hk hx hp (mul_bound _ _ _ hp.high 181 181 (by norm_num) (by omega) (by omega))

/-- `bn_fast_mod`: below twice the modulus, same residue; for any nine machine words, normalized or not. -/
theorem C48_fast_mod (x p : BN) (hx : x.length = 9) (hp : Modulus p) :
    Normal (fastMod x p) ∧ limbValue (fastMod x p) < 2 * limbValue p ∧ limbValue (fastMod x p) ≡ limbValue x [MOD limbValue p] := by
  obtain ⟨h1, h2, h3⟩ := fastMod_spec x p hx hp
  exact ⟨h1, h3, by rw [← h2, Nat.ModEq, Nat.add_mul_mod_self_right]⟩

/-- `bn_mod`: the residue itself, for arguments below twice the modulus. -/
theorem C48_mod (x p : BN) (hx : Normal x) (hp : Modulus p) (h : limbValue x < 2 * limbValue p) :
    Normal (mod x p) ∧ limbValue (mod x p) = limbValue x % limbValue p := mod_spec x p hx hp.normal h

/-- `bn_fast_mod` followed by `bn_mod`, the reduction of a number read from 32 bytes. -/
theorem C48_reduce (x p : BN) (hx : x.length = 9) (hp : Modulus p) :
    Normal (mod (fastMod x p) p) ∧ limbValue (mod (fastMod x p) p) = limbValue x % limbValue p := by
  obtain ⟨h1, h2, h3⟩ := C48_fast_mod x p hx hp
  obtain ⟨h4, h5⟩ := C48_mod _ p h1 hp h2
  exact ⟨h4, by rw [h5, h3]⟩

/-- `bn_lshift` and `bn_rshift` double and halve. -/
theorem C48_lshift (a : BN) (h : Normal a) (hv : 2 * limbValue a < 2 ^ 270) : Normal (lshift a) ∧ limbValue (lshift a) = 2 * limbValue a := by
  obtain ⟨h1, h2⟩ := lshift_spec a h
  exact ⟨h1, by rw [h2, Nat.mod_eq_of_lt hv]⟩

theorem C48_rshift (a : BN) (h : Normal a) : Normal (rshift a) ∧ limbValue (rshift a) = limbValue a / 2 := rshift_spec a h

/-- `bn_addi` and `bn_subi` with a small operand. -/
theorem C48_addi (a : BN) (b : UInt32) (ha : Normal a) (hb : b.toNat < 2 ^ 31) (h : limbValue a + b.toNat < 2 ^ 270) :
    Normal (addi a b) ∧ limbValue (addi a b) = limbValue a + b.toNat := by
  obtain ⟨h1, h2⟩ := addi_spec a b ha hb
  exact ⟨h1, by rw [h2, Nat.mod_eq_of_lt h]⟩

theorem C48_subi (a : BN) (b : UInt32) (p : BN) (ha : Normal a) (hp : Modulus p) (hb : b.toNat ≤ (p.headD 0).toNat)
    (h : limbValue a + limbValue p < 2 ^ 270) :
    Normal (subi a b p) ∧ limbValue (subi a b p) = limbValue a + limbValue p - b.toNat := by
  obtain ⟨h1, h2⟩ := subi_spec a b p ha hp.normal hb
  exact ⟨h1, by rw [h2, Nat.mod_eq_of_lt (by omega)]⟩

/-- The predicates. -/
theorem C48_compare (a b : BN) (ha : Normal a) (hb : Normal b) :
    (isLess a b = true ↔ limbValue a < limbValue b) ∧ (isEqual a b = true ↔ limbValue a = limbValue b) ∧
      (isZero a = true ↔ limbValue a = 0) ∧ (isOdd a = true ↔ limbValue a % 2 = 1) :=
  ⟨isLess_iff ha hb, isEqual_iff ha hb, isZero_iff a, isOdd_iff a⟩

/-- `bn_sqrt` raises to the power (p+1)/4. -/
theorem C48_sqrt (x p : BN) (hx : Normal x) (hp : Modulus p) (h : limbValue x * limbValue x < 2 ^ 271 * limbValue p) :
    Normal (sqrt x p) ∧ limbValue (sqrt x p) = limbValue x ^ ((limbValue p + 1) / 4) % limbValue p := sqrt_spec x p hx hp h

/-- For a prime that is 3 modulo 4, `bn_sqrt` of a square is a root of it. -/
theorem C48_sqrt_root (x p : BN) (y : Nat) (hx : Normal x) (hp : Modulus p) (hprime : Nat.Prime (limbValue p)) (h4 : limbValue p % 4 = 3)
    (hlt : limbValue x < 2 * limbValue p) (hy : y * y ≡ limbValue x [MOD limbValue p]) :
    limbValue (sqrt x p) * limbValue (sqrt x p) ≡ limbValue x [MOD limbValue p] := by
  obtain ⟨-, h2⟩ := sqrt_spec x p hx hp (two_p_sq p hp hlt hlt)
  have : Fact (Nat.Prime (limbValue p)) := ⟨hprime⟩
  rw [← ZMod.natCast_eq_natCast_iff] at hy ⊢
  rw [h2]
  push_cast [ZMod.natCast_mod] at hy ⊢
  rw [← hy, ← mul_pow]
  by_cases hz : (y : ZMod (limbValue p)) = 0
  · rw [hz]
    have : (limbValue p + 1) / 4 ≠ 0 := by have := hp.low; omega
    simp [this]
  · have h5 := ZMod.pow_card_sub_one_eq_one hz
    calc ((y : ZMod (limbValue p)) * y * (y * y)) ^ ((limbValue p + 1) / 4) = y ^ (4 * ((limbValue p + 1) / 4)) := by rw [pow_mul]; ring
      _ = y ^ (limbValue p - 1 + 2) := by congr 1; omega
      _ = y * y := by rw [pow_add, h5]; ring

example : Normal (multiply Secp.gx Secp.gy Secp.prime) ∧ limbValue (multiply Secp.gx Secp.gy Secp.prime) < 2 * secpP ∧
    limbValue (multiply Secp.gx Secp.gy Secp.prime) ≡ secpGx * secpGy [MOD secpP] := by
  have := C48_multiply_documented Secp.gx Secp.gy Secp.prime normal_gx normal_gy modulus_prime (by decide +kernel) (by decide +kernel)
  rwa [value_gx, value_gy, value_prime] at this

example : Normal (subtractmod Secp.gx Secp.gy Secp.prime) ∧ limbValue (subtractmod Secp.gx Secp.gy Secp.prime) + secpGy = secpGx + 2 * secpP := by
  have := C48_subtractmod Secp.gx Secp.gy Secp.prime normal_gx normal_gy modulus_prime (by decide +kernel) (by decide +kernel)
  rwa [value_gx, value_gy, value_prime] at this

/-- The square 4 satisfies the hypotheses of `C48_sqrt_root` (with the root 2). -/
example : limbValue (sqrt (ofUInt32 4) Secp.prime) * limbValue (sqrt (ofUInt32 4) Secp.prime) ≡ limbValue (ofUInt32 4) [MOD limbValue Secp.prime] :=
  C48_sqrt_root (ofUInt32 4) Secp.prime 2 ⟨rfl, by decide⟩ modulus_prime (by rw [value_prime]; exact prime_secpP) (by decide +kernel)
    (by decide +kernel) (by decide +kernel)

/-! ### C49 -/

/-- `bn_inverse` terminates for every number that is not a multiple of the prime, whatever nine words it is given, and gives the inverse:
normalized, below the prime, product 1. -/
theorem C49_inverse (x p : BN) (hx : x.length = 9) (hp : Modulus p) (hprime : Nat.Prime (limbValue p)) (h : ¬ limbValue p ∣ limbValue x) :
    ∃ r, inverse x p = .ok r ∧ Normal r ∧ limbValue r < limbValue p ∧ limbValue r * limbValue x % limbValue p = 1 := by
  have h2 : limbValue p ≠ 2 := by have := hp.low; omega
  obtain ⟨r, h3, h4, h5, h6⟩ := inverse_spec x p hx hp (hprime.eq_two_or_odd.resolve_left h2) ((Nat.coprime_comm).mp ((Nat.Prime.coprime_iff_not_dvd hprime).mpr h))
  exact ⟨r, h3, h4, h5, by rw [h6, Nat.mod_eq_of_lt hprime.one_lt]⟩

/-- For the field of secp256k1. -/
theorem C49_inverse_field (x : BN) (hx : Normal x) (h : ¬ secpP ∣ limbValue x) :
    ∃ r, inverse x Secp.prime = .ok r ∧ Normal r ∧ limbValue r < secpP ∧ limbValue r * limbValue x % secpP = 1 := by
  have := C49_inverse x Secp.prime hx.len modulus_prime (by rw [value_prime]; exact prime_secpP) (by rwa [value_prime])
  rwa [value_prime] at this

/-- For its group order. -/
theorem C49_inverse_order (x : BN) (hx : Normal x) (h : ¬ secpN ∣ limbValue x) :
    ∃ r, inverse x Secp.order = .ok r ∧ Normal r ∧ limbValue r < secpN ∧ limbValue r * limbValue x % secpN = 1 := by
  have := C49_inverse x Secp.order hx.len modulus_order (by rw [value_order]; exact prime_secpN) (by rwa [value_order])
  rwa [value_order] at this

/-- The inverse of zero: the loop of bignum.c:681-688 counts `len1` down to 0 and then reads `a[-1]`, outside the array; its guard
against zero comes one access too late. -/
theorem C49_zero_out_of_bounds (x p : BN) (hx : x.length = 9) (hp : Modulus p) (ho : limbValue p % 2 = 1) (h : limbValue p ∣ limbValue x) : inverse x p = .ub := by
  obtain ⟨h1, h2⟩ := C48_reduce x p hx hp
  rw [Nat.mod_eq_zero_of_dvd h] at h2
  have hz : mod (fastMod x p) p = BN.zero := h1.inj normal_zero (by rw [h2, limbValue_zero])
  obtain ⟨q1, q2⟩ := pack_spec p hp.normal hp.high
  unfold inverse
  simp only [hz]
  have hb1 : bit0 ((pack p ++ [1]).headD 0) = true := by
    rw [bit0_iff]
    have hw := @first_word ⟨pack p ++ [1], 8⟩ ⟨by simp [q1], by norm_num, le_refl _⟩
    have hf : Combo.first ⟨pack p ++ [1], 8⟩ = limbValue p := by
      simp only [Combo.first]; rw [List.take_append_of_le_length (by omega), List.take_of_length_le (by omega), q2]
    rw [hf] at hw
    simp only at hw
    omega
  have hb2 : bit0 ((pack p ++ [1]).getD 8 0) = true := by
    rw [List.getD_eq_getElem?_getD, List.getElem?_append_right (by omega), q1]
    rfl
  have hl : inverseLoop 514 ⟨pack p ++ [1], 8⟩ ⟨pack BN.zero ++ [0], 8⟩ true 0 = .ub := by
    have hm : makeOdd ⟨pack BN.zero ++ [0], 8⟩ 0 = .ub := by decide +kernel
    rw [inverseLoop]
    simp only [if_true, hb1, hb2, Bool.and_self, require, C.bind_ok, hm, C.bind_ub]
  rw [hl, C.bind_ub]

example : inverse BN.zero Secp.prime = .ub := C49_zero_out_of_bounds _ _ rfl modulus_prime (by decide +kernel) (by rw [limbValue_zero]; exact dvd_zero _)

example : ∃ r, inverse Secp.gx Secp.prime = .ok r ∧ Normal r ∧ limbValue r < secpP ∧ limbValue r * limbValue Secp.gx % secpP = 1 :=
  C49_inverse_field Secp.gx normal_gx (by decide +kernel)

end UB
