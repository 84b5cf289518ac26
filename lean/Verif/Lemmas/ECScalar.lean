import Verif.Lemmas.ECKeyOps

namespace UB
open Spec BN

attribute [local irreducible] secpP secpN BN.multiply BN.fastMod BN.mod BN.subtractmod BN.multK BN.addmod BN.inverse BN.lshift BN.subi BN.add
  BN.multHalf BN.cmov BN.isEqual BN.isZero BN.sqrt BN.subtract scalarMultiply pointMultiply CurvePoint.add readBE writeBE BN.addi

theorem scalar_res {b : Bytes} (h : b.length = 32) : Res secpN 2 (readBE b) (beNat b : Fn) := by
  obtain ⟨p1, p2⟩ := readBE_key h
  refine ⟨p1, ?_, by rw [p2]⟩
  rw [p2]
  exact (beValue_lt32 h).trans two256_lt_2N

theorem write_res {a : BN} {v : Fn} (h : Res secpN 1 a v) : writeBE a = beBytes 32 v.val := by
  have hl := h.lt
  rw [one_mul] at hl
  rw [writeBE_eq h.normal (hl.trans secpN_lt), ← h.val, ZMod.val_natCast_of_lt hl]

theorem n_lt_bytes : secpN < 256 ^ 32 := lt_of_lt_of_eq secpN_lt (by norm_num)

theorem beNat_beBytes32 {n : Nat} (h : n < 2 ^ 256) : beNat (beBytes 32 n) = n := by
  rw [beNat_beBytes, Nat.mod_eq_of_lt (lt_of_lt_of_eq h (by norm_num))]

theorem beNat_val (v : Fn) : beNat (beBytes 32 v.val) = v.val := beNat_beBytes32 ((ZMod.val_lt v).trans secpN_lt)

namespace Scalar

theorem add_spec {a b : Bytes} (ha : a.length = 32) (hb : b.length = 32) : add a b = beBytes 32 ((beNat a : Fn) + (beNat b : Fn)).val :=
  write_res (((scalar_res ha).addmod pm_order (scalar_res hb)).mod pm_order)

theorem mul_spec {a b : Bytes} (ha : a.length = 32) (hb : b.length = 32) : mul a b = beBytes 32 ((beNat a : Fn) * (beNat b : Fn)).val := by
  rw [mul_comm]
  exact write_res (((scalar_res hb).multiply pm_order (scalar_res ha) (by norm_num)).mod pm_order)

theorem div_spec {a b : Bytes} (ha : a.length = 32) (hb : b.length = 32) (h : (beNat b : Fn) ≠ 0) :
    div a b = .ok (beBytes 32 ((beNat a : Fn) / (beNat b : Fn)).val) := by
  obtain ⟨r, r1, r2⟩ := (scalar_res hb).inverse pm_order h
  unfold div
  rw [r1, C.bind_ok, C.pure_eq, write_res ((r2.multiply pm_order (scalar_res ha) (by norm_num)).mod pm_order), mul_comm, div_eq_mul_inv]

theorem neg_spec {a : Bytes} (ha : a.length = 32) (h : beNat a ≤ secpN) : neg a = beBytes 32 (secpN - beNat a) := by
  obtain ⟨p1, p2⟩ := readBE_key ha
  obtain ⟨h1, h2⟩ := subtract_le Secp.order (readBE a) modulus_order.normal p1 (by rw [p2, value_order]; exact h)
  unfold neg
  rw [writeBE_eq h1 (by rw [h2, value_order]; exact (Nat.sub_le _ _).trans_lt secpN_lt), h2, value_order, p2]

theorem length_neg {a : Bytes} (ha : a.length = 32) (h : beNat a ≤ secpN) : (neg a).length = 32 := by
  rw [neg_spec ha h, Spec.length_beBytes]

theorem cast_neg {a : Bytes} (ha : a.length = 32) (h : beNat a ≤ secpN) : (beNat (neg a) : Fn) = -(beNat a : Fn) := by
  rw [neg_spec ha h, beNat_beBytes32 ((Nat.sub_le _ _).trans_lt secpN_lt), Nat.cast_sub h, ZMod.natCast_self, zero_sub]

theorem sub_spec {a b : Bytes} (ha : a.length = 32) (hb : b.length = 32) (h : beNat b ≤ secpN) :
    sub a b = beBytes 32 ((beNat a : Fn) - (beNat b : Fn)).val := by
  unfold sub
  rw [add_spec ha (length_neg hb h), cast_neg hb h, sub_eq_add_neg]

theorem addi_spec {a : Bytes} (ha : a.length = 32) (i : UInt32) (hi : i.toNat < 2 ^ 31) :
    addi a i = beBytes 32 ((beNat a : Fn) + (i.toNat : Fn)).val := by
  obtain ⟨p1, p2⟩ := readBE_key ha
  have hlt := beValue_lt32 ha
  have hv : beNat a = beValue a := rfl
  have hp : (2 : Nat) ^ 256 + 2 ^ 31 < 2 ^ 270 := by decide +kernel
  obtain ⟨h1, h2⟩ := BN.addi_spec (readBE a) i p1 hi
  rw [p2, Nat.mod_eq_of_lt (by omega)] at h2
  have h2N : 2 ^ 256 + 2 ^ 31 < 2 * secpN := by unfold secpN; decide +kernel
  unfold addi
  have r : Res secpN 2 (BN.addi (readBE a) i) ((beNat a : Fn) + (i.toNat : Fn)) := ⟨h1, by rw [h2]; omega, by rw [h2, Nat.cast_add]⟩
  exact write_res (r.mod pm_order)

theorem subi_spec {a : Bytes} (ha : a.length = 32) (hl : beNat a < secpN) (i : UInt32) (hi : i.toNat ≤ 0x10364141) :
    subi a i = beBytes 32 ((beNat a : Fn) - (i.toNat : Fn)).val := by
  obtain ⟨p1, p2⟩ := readBE_key ha
  have hh : (Secp.order.headD 0).toNat = 0x10364141 := by decide +kernel
  obtain ⟨h1, h2⟩ := BN.subi_spec (readBE a) i Secp.order p1 modulus_order.normal (by rw [hh]; exact hi)
  have hN := secpN_lt
  have hN' : 0x10364141 < secpN := by unfold secpN; decide +kernel
  have hp : (2 : Nat) ^ 256 + 2 ^ 256 < 2 ^ 270 := by decide +kernel
  rw [p2, value_order, Nat.mod_eq_of_lt (by omega)] at h2
  unfold subi
  have r : Res secpN 2 (BN.subi (readBE a) i Secp.order) ((beNat a : Fn) - (i.toNat : Fn)) := by
    refine ⟨h1, by rw [h2]; omega, ?_⟩
    rw [h2, Nat.cast_sub (by omega), Nat.cast_add, ZMod.natCast_self, add_zero]
  exact write_res (r.mod pm_order)

theorem lt_spec {a b : Bytes} (ha : a.length = 32) (hb : b.length = 32) : lt a b = decide (beNat a < beNat b) := by
  obtain ⟨p1, p2⟩ := readBE_key ha
  obtain ⟨q1, q2⟩ := readBE_key hb
  have := isLess_iff p1 q1
  rw [p2, q2] at this
  unfold lt
  rw [Bool.eq_iff_iff, this, decide_eq_true_iff]

theorem finish_spec {a : Bytes} (ha : a.length = 32) : finish a = (beBytes 32 (beNat a % secpN), a != zeros 32) := by
  unfold finish
  rw [write_res ((scalar_res ha).mod pm_order), ZMod.val_natCast]

end Scalar
end UB
