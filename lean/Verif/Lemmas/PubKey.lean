import Verif.Model.Ecdsa
import Verif.Spec.Sec
import Verif.Lemmas.CurveMul
import Verif.Lemmas.Sha2Words

/-
Reading and writing public keys (ecdsa.c:825-1009).
-/

namespace UB
open Spec BN

attribute [local irreducible] secpP BN.multiply BN.fastMod BN.mod BN.subtractmod BN.multK BN.addmod BN.inverse BN.lshift BN.subi BN.add
  BN.multHalf BN.cmov BN.isEqual BN.isZero BN.sqrt BN.subtract

theorem secpP_lt : secpP < 2 ^ 256 := Res.q_lt pm_prime
theorem secpN_lt : secpN < 2 ^ 256 := Res.q_lt pm_order
theorem secpN_lt_P : secpN < secpP := by unfold secpP; decide +kernel
theorem secpP_lt_2N : secpP < 2 * secpN := by unfold secpP; decide +kernel
theorem two256_lt_2N : 2 ^ 256 < 2 * secpN := by decide +kernel
theorem two256_lt_2P : 2 ^ 256 < 2 * secpP := by unfold secpP; decide +kernel

theorem beValue_lt32 {b : Bytes} (h : b.length = 32) : beValue b < 2 ^ 256 := by
  have := beValue_lt b
  rw [h] at this
  calc beValue b < _ := this
    _ = 2 ^ 256 := by norm_num

theorem writeBE_eq {a : BN} (h : Normal a) (hv : limbValue a < 2 ^ 256) : writeBE a = beBytes 32 (limbValue a) := by
  obtain ⟨h1, h2⟩ := writeBE_spec a h hv
  have := beBytes_beNat (writeBE a)
  rw [h1] at this
  rw [← this]
  congr 1

theorem readBE_beBytes {n : Nat} (h : n < 2 ^ 256) : Normal (readBE (beBytes 32 n)) ∧ limbValue (readBE (beBytes 32 n)) = n := by
  obtain ⟨h1, h2⟩ := readBE_spec (beBytes 32 n) (Spec.length_beBytes _ _)
  refine ⟨h1, ?_⟩
  rw [h2]
  have := beNat_beBytes 32 n
  rw [Nat.mod_eq_of_lt (lt_of_lt_of_eq h (by norm_num))] at this
  exact this

theorem res_b : Res secpP 1 Secp.b 7 := by
  refine ⟨⟨rfl, by decide⟩, ?_, ?_⟩
  · have : limbValue Secp.b = 7 := by decide
    rw [this]
    have := Res.q_low pm_prime
    omega
  · have : limbValue Secp.b = 7 := by decide
    rw [this]
    norm_cast

theorem validatePubkey_iff {p : CurvePoint} (hx : Normal p.x) (hy : Normal p.y) :
    validatePubkey p = true ↔ ∃ P : Pt, P ≠ 0 ∧ IsPoint p.x p.y P := by
  have main (rx : Res secpP 1 p.x (limbValue p.x)) (ry : Res secpP 1 p.y (limbValue p.y)) :
      isEqual (mod (addmod (multiply p.x (subi (multiply p.x p.x Secp.prime) 0 Secp.prime) Secp.prime) Secp.b Secp.prime) Secp.prime)
        (mod (multiply p.y p.y Secp.prime) Secp.prime) = true ↔ ((limbValue p.y : Fp)) ^ 2 = ((limbValue p.x : Fp)) ^ 3 + 7 := by
    have y2 := (ry.multiply pm_prime ry (by norm_num)).mod pm_prime
    have a1 := (rx.multiply pm_prime rx (by norm_num)).subi_zero pm_prime (by norm_num)
    have a2 := ((rx.multiply pm_prime a1 (by norm_num)).addmod pm_prime res_b).mod pm_prime
    rw [Res.isEqual a2 y2]
    constructor
    · intro h; linear_combination -h
    · intro h; linear_combination -h
  constructor
  · intro h
    unfold validatePubkey at h
    split at h
    · cases h
    split at h
    · cases h
    rename_i h1 h2
    simp only [Bool.or_eq_true, Bool.not_eq_true', not_or, Bool.not_eq_false] at h2
    rw [isLess_iff hx modulus_prime.normal, isLess_iff hy modulus_prime.normal, value_prime] at h2
    have rx := Res.self (q := secpP) hx h2.1
    have ry := Res.self (q := secpP) hy h2.2
    rw [main rx ry] at h
    obtain ⟨P, hP⟩ := at_exists h
    exact ⟨P, hP.ne_zero, hx, hy, h2.1, h2.2, .inr hP⟩
  · rintro ⟨P, h0, hP⟩
    have hi : p.isInfinity = false := by
      rw [Bool.eq_false_iff, Ne, isInfinity_iff hP]
      exact h0
    obtain ⟨-, -, lx, ly, h⟩ := hP
    have hat := h.resolve_left fun h => h0 h.1
    unfold validatePubkey
    have e1 : isLess p.x Secp.prime = true := (isLess_iff hx modulus_prime.normal).mpr (by rw [value_prime]; exact lx)
    have e2 : isLess p.y Secp.prime = true := (isLess_iff hy modulus_prime.normal).mpr (by rw [value_prime]; exact ly)
    simp only [hi, e1, e2, Bool.not_true, Bool.or_self, Bool.false_eq_true, if_false]
    exact (main (Res.self hx lx) (Res.self hy ly)).mpr hat.eqn

theorem low_bit (y : BN) : (y.headD 0 &&& 1).toNat = limbValue y % 2 := by
  have h := isOdd_iff y
  rw [isOdd, beq_iff_eq] at h
  have h1 : (y.headD 0 &&& 1).toNat ≤ 1 := by
    rw [UInt32.toNat_and]
    exact Nat.and_le_right
  by_cases c : limbValue y % 2 = 1
  · rw [h.mpr c, c]; rfl
  · have : (y.headD 0 &&& 1).toNat ≠ 1 := fun e => c (h.mp (UInt32.toNat_inj.mp e))
    omega

theorem byte_bit (odd : UInt8) : (odd &&& 1).toNat = odd.toNat % 2 := by
  rw [UInt8.toNat_and]
  exact Nat.and_one_is_mod _

theorem bit_ne (odd : UInt8) (y : BN) : ((odd &&& 1).toUInt32 != (y.headD 0 &&& 1)) = true ↔ odd.toNat % 2 ≠ limbValue y % 2 := by
  rw [bne_iff_ne, ← low_bit, ← byte_bit, Ne, ← UInt32.toNat_inj]
  rfl

/-- `uncompress_coords` always gives normalized limbs; if the abscissa belongs to a point it gives the ordinate of the wanted parity. -/
theorem uncompressCoords_spec (odd : UInt8) {x : BN} (hx : Normal x) (hl : limbValue x < 2 ^ 256) :
    Normal (uncompressCoords odd x) ∧
    (∀ (P : Pt) (y : Fp), limbValue x < secpP → At P (limbValue x : Fp) y →
      limbValue (uncompressCoords odd x) < secpP ∧ limbValue (uncompressCoords odd x) % 2 = odd.toNat % 2 ∧
      ((limbValue (uncompressCoords odd x) : Fp) = y ∨ (limbValue (uncompressCoords odd x) : Fp) = -y)) := by
  have rx : Res secpP 2 x (limbValue x : Fp) := ⟨hx, hl.trans two256_lt_2P, rfl⟩
  have a1 := (rx.multiply pm_prime rx (by norm_num)).subi_zero pm_prime (by norm_num)
  have a2 := (rx.multiply pm_prime a1 (by norm_num)).add pm_prime res_b (by norm_num)
  obtain ⟨s1, s2⟩ := sqrt_spec _ Secp.prime a2.normal modulus_prime (by
    have := a2.lt
    rw [value_prime]
    have hq := secpP_lt
    have h0 : 0 < secpP := pm_prime.pr.pos
    set v := limbValue (BN.add (multiply x (subi (multiply x x Secp.prime) 0 Secp.prime) Secp.prime) Secp.b) with hv
    calc v * v ≤ ((2 + 1) * secpP) * ((2 + 1) * secpP) := Nat.mul_le_mul this.le this.le
      _ = (9 * secpP) * secpP := by ring
      _ < 2 ^ 271 * secpP := Nat.mul_lt_mul_of_pos_right (by
          calc 9 * secpP < 9 * 2 ^ 256 := Nat.mul_lt_mul_of_pos_left hq (by norm_num)
            _ < 2 ^ 15 * 2 ^ 256 := Nat.mul_lt_mul_of_pos_right (by norm_num) (Nat.two_pow_pos 256)
            _ = 2 ^ 271 := by rw [← Nat.pow_add]) h0)
  rw [value_prime] at s2
  unfold uncompressCoords
  simp only
  set v := BN.add (multiply x (subi (multiply x x Secp.prime) 0 Secp.prime) Secp.prime) Secp.b with hv
  have slt : limbValue (sqrt v Secp.prime) < secpP := by rw [s2]; exact Nat.mod_lt _ pm_prime.pr.pos
  obtain ⟨n1, n2⟩ := subtract_le Secp.prime (sqrt v Secp.prime) modulus_prime.normal s1 (by rw [value_prime]; exact slt.le)
  rw [value_prime] at n2
  refine ⟨by split; exacts [n1, s1], ?_⟩
  intro P y hxl hat
  have he := hat.eqn
  have sq : (limbValue (sqrt v Secp.prime) : Fp) * (limbValue (sqrt v Secp.prime) : Fp) = y ^ 2 := by
    rw [s2]
    push_cast [ZMod.natCast_mod]
    rw [a2.val]
    have e1 : (limbValue x : Fp) * ((limbValue x : Fp) * (limbValue x : Fp)) + 7 = y ^ 2 := by rw [he]; ring
    rw [e1, ← mul_pow, ← pow_add, ← pow_mul]
    have h5 := ZMod.pow_card_sub_one_eq_one hat.y_ne
    have h4 : (2 + 2) * ((secpP + 1) / 4) = secpP - 1 + 2 := by unfold secpP; decide +kernel
    rw [h4, pow_add, h5, one_mul]
  have hroot : (limbValue (sqrt v Secp.prime) : Fp) = y ∨ (limbValue (sqrt v Secp.prime) : Fp) = -y := by
    rw [← pow_two] at sq
    exact sq_eq_sq_iff_eq_or_eq_neg.mp sq
  have hy0 := hat.y_ne
  have hne : limbValue (sqrt v Secp.prime) ≠ 0 := by
    intro hc
    rw [hc, Nat.cast_zero] at hroot
    rcases hroot with h | h
    · exact hy0 h.symm
    · exact hy0 (neg_eq_zero.mp h.symm)
  have hodd := pm_prime.odd
  by_cases c : ((odd &&& 1).toUInt32 != (List.headD (sqrt v Secp.prime) 0 &&& 1)) = true
  · rw [if_pos c]
    rw [bit_ne] at c
    refine ⟨by omega, by omega, ?_⟩
    rw [n2, Nat.cast_sub slt.le, ZMod.natCast_self, zero_sub]
    rcases hroot with h | h
    · right; rw [h]
    · left; rw [h, neg_neg]
  · rw [if_neg c]
    rw [bit_ne, not_not] at c
    exact ⟨slt, c.symm, hroot⟩

/-- Coordinates of a point held in limbs. -/
theorem isSec_of_point {p : CurvePoint} {P : Pt} (h : IsPoint p.x p.y P) (h0 : P ≠ 0) (c : Bool) (b : Bytes) :
    IsSec b c P ↔ b = secBytes c (limbValue p.x) (limbValue p.y) := by
  obtain ⟨-, -, lx, ly, hat⟩ := h
  have hat := hat.resolve_left fun h => h0 h.1
  constructor
  · rintro ⟨x, y, hat', rfl⟩
    obtain ⟨rfl, rfl⟩ := hat.coords hat'
    rw [ZMod.val_natCast_of_lt lx, ZMod.val_natCast_of_lt ly]
  · rintro rfl
    exact ⟨_, _, hat, by rw [ZMod.val_natCast_of_lt lx, ZMod.val_natCast_of_lt ly]⟩

theorem load_mid (a b c : Bytes) : load (a ++ b ++ c) a.length b.length = .ok b := by
  unfold load
  rw [if_pos (by simp), List.append_assoc, List.drop_left, List.take_left]

/-- Reading an encoding of a point gives the point, whatever follows. -/
theorem readPubkey_complete {b : Bytes} {c : Bool} {P : Pt} (h : IsSec b c P) (t : Bytes) (old : CurvePoint) :
    ∃ p, readPubkey (b ++ t) old = .ok (true, p) ∧ IsPoint p.x p.y P := by
  obtain ⟨x, y, hat, rfl⟩ := h
  have hx : x.val < 2 ^ 256 := (ZMod.val_lt x).trans secpP_lt
  have hy : y.val < 2 ^ 256 := (ZMod.val_lt y).trans secpP_lt
  obtain ⟨x1, x2⟩ := readBE_beBytes hx
  obtain ⟨y1, y2⟩ := readBE_beBytes hy
  have ex : ((x.val : Nat) : Fp) = x := ZMod.natCast_zmod_val x
  have ey : ((y.val : Nat) : Fp) = y := ZMod.natCast_zmod_val y
  have lb (n : Nat) : (beBytes 32 n).length = 32 := Spec.length_beBytes _ _
  cases c with
  | false =>
    have hp : IsPoint (readBE (beBytes 32 x.val)) (readBE (beBytes 32 y.val)) P :=
      ⟨x1, y1, by rw [x2]; exact ZMod.val_lt x, by rw [y2]; exact ZMod.val_lt y, .inr (by rw [x2, y2, ex, ey]; exact hat)⟩
    refine ⟨⟨readBE (beBytes 32 x.val), readBE (beBytes 32 y.val)⟩, ?_, hp⟩
    have hv : validatePubkey ⟨readBE (beBytes 32 x.val), readBE (beBytes 32 y.val)⟩ = true := (validatePubkey_iff x1 y1).mpr ⟨P, hat.ne_zero, hp⟩
    have l1 : load (secBytes false x.val y.val ++ t) 1 32 = .ok (beBytes 32 x.val) := by
      have := load_mid [0x04] (beBytes 32 x.val) (beBytes 32 y.val ++ t)
      rw [lb] at this
      simpa [secBytes] using this
    have l2 : load (secBytes false x.val y.val ++ t) 33 32 = .ok (beBytes 32 y.val) := by
      have := load_mid (0x04 :: beBytes 32 x.val) (beBytes 32 y.val) t
      rw [List.length_cons, lb, lb] at this
      simpa [secBytes] using this
    have l0 : entry (secBytes false x.val y.val ++ t) 0 = .ok 0x04 := rfl
    unfold readPubkey
    rw [l0, C.bind_ok, if_pos rfl, l1, C.bind_ok, l2, C.bind_ok]
    simp only [hv, C.pure_eq]
  | true =>
    obtain ⟨u1, u2⟩ := uncompressCoords_spec (if y.val % 2 = 1 then 0x03 else 0x02) x1 (by rw [x2]; exact hx)
    obtain ⟨v1, v2, v3⟩ := u2 P y (by rw [x2]; exact ZMod.val_lt x) (by rw [x2, ex]; exact hat)
    set Y := uncompressCoords (if y.val % 2 = 1 then 0x03 else 0x02) (readBE (beBytes 32 x.val)) with hY
    have hYy : (limbValue Y : Fp) = y := by
      refine v3.resolve_right fun hc => ?_
      have h1 : limbValue Y = secpP - y.val := by
        have h2 : ((limbValue Y : Nat) : Fp) = ((secpP - y.val : Nat) : Fp) := by
          rw [hc, Nat.cast_sub (ZMod.val_lt y).le, ZMod.natCast_self, zero_sub, ey]
        rw [ZMod.natCast_eq_natCast_iff', Nat.mod_eq_of_lt v1, Nat.mod_eq_of_lt] at h2
        · exact h2
        · have : y.val ≠ 0 := fun h => hat.y_ne ((ZMod.val_eq_zero y).mp h)
          have := pm_prime.pr.pos
          omega
      have h2 := ZMod.val_lt y
      have h3 := pm_prime.odd
      rw [h1] at v2
      split at v2
      · have : (3 : UInt8).toNat = 3 := rfl
        omega
      · have : (2 : UInt8).toNat = 2 := rfl
        omega
    have hp : IsPoint (readBE (beBytes 32 x.val)) Y P :=
      ⟨x1, u1, by rw [x2]; exact ZMod.val_lt x, v1, .inr (by rw [x2, hYy, ex]; exact hat)⟩
    refine ⟨⟨readBE (beBytes 32 x.val), Y⟩, ?_, hp⟩
    have hv : validatePubkey ⟨readBE (beBytes 32 x.val), Y⟩ = true := (validatePubkey_iff x1 u1).mpr ⟨P, hat.ne_zero, hp⟩
    have l1 : load (secBytes true x.val y.val ++ t) 1 32 = .ok (beBytes 32 x.val) := by
      have := load_mid [if y.val % 2 = 1 then 0x03 else 0x02] (beBytes 32 x.val) t
      rw [lb] at this
      simpa [secBytes] using this
    have l0 : entry (secBytes true x.val y.val ++ t) 0 = .ok (if y.val % 2 = 1 then 0x03 else 0x02) := rfl
    have n4 : (if y.val % 2 = 1 then 0x03 else 0x02 : UInt8) ≠ 4 := by split <;> decide
    have n23 : (if y.val % 2 = 1 then 0x03 else 0x02 : UInt8) = 2 ∨ (if y.val % 2 = 1 then 0x03 else 0x02 : UInt8) = 3 := by split <;> simp
    unfold readPubkey
    rw [l0, C.bind_ok, if_neg n4, if_pos n23, l1, C.bind_ok, ← hY]
    simp only [hv, C.pure_eq]

/-- What is accepted is an encoding of a point. -/
theorem readPubkey_sound {b : Bytes} {old p : CurvePoint} (h : readPubkey b old = .ok (true, p)) :
    ∃ (P : Pt) (c : Bool), P ≠ 0 ∧ IsPoint p.x p.y P ∧ IsSec (b.take (if c then 33 else 65)) c P := by
  unfold readPubkey at h
  match b with
  | [] => simp [entry] at h
  | b0 :: bs =>
    have l0 : entry (b0 :: bs) 0 = .ok b0 := rfl
    rw [l0, C.bind_ok] at h
    by_cases c4 : b0 = 4
    · rw [if_pos c4] at h
      unfold load at h
      by_cases hl : 1 + 32 ≤ (b0 :: bs).length
      · by_cases hl2 : 33 + 32 ≤ (b0 :: bs).length
        · rw [if_pos hl, C.bind_ok, if_pos hl2, C.bind_ok, C.pure_eq, C.ok.injEq, Prod.mk.injEq] at h
          obtain ⟨h1, rfl⟩ := h
          have lx : (List.take 32 (List.drop 1 (b0 :: bs))).length = 32 := by simp at hl hl2 ⊢; omega
          have ly : (List.take 32 (List.drop 33 (b0 :: bs))).length = 32 := by simp at hl hl2 ⊢; omega
          obtain ⟨x1, x2⟩ := readBE_spec _ lx
          obtain ⟨y1, y2⟩ := readBE_spec _ ly
          obtain ⟨P, hP0, hP⟩ := (validatePubkey_iff x1 y1).mp h1
          refine ⟨P, false, hP0, hP, (isSec_of_point hP hP0 _ _).mpr ?_⟩
          have ex := writeBE_eq x1 (by rw [x2]; exact beValue_lt32 lx)
          have ey := writeBE_eq y1 (by rw [y2]; exact beValue_lt32 ly)
          rw [C47_roundtrip_be _ lx] at ex
          rw [C47_roundtrip_be _ ly] at ey
          simp only [secBytes, Bool.false_eq_true, if_false]
          rw [← ex, ← ey, c4]
          rw [show (65 : Nat) = 64 + 1 from rfl, List.take_succ_cons, List.drop_succ_cons, List.drop_succ_cons, List.drop_zero,
            show (64 : Nat) = 32 + 32 from rfl, List.take_add]
        · rw [if_pos hl, C.bind_ok, if_neg hl2] at h; cases h
      · rw [if_neg hl] at h; cases h
    · rw [if_neg c4] at h
      by_cases c23 : b0 = 2 ∨ b0 = 3
      · rw [if_pos c23] at h
        unfold load at h
        by_cases hl : 1 + 32 ≤ (b0 :: bs).length
        · rw [if_pos hl, C.bind_ok, C.pure_eq, C.ok.injEq, Prod.mk.injEq] at h
          obtain ⟨h1, rfl⟩ := h
          have lx : (List.take 32 (List.drop 1 (b0 :: bs))).length = 32 := by simp at hl ⊢; omega
          obtain ⟨x1, x2⟩ := readBE_spec _ lx
          obtain ⟨u1, u2⟩ := uncompressCoords_spec b0 x1 (by rw [x2]; exact beValue_lt32 lx)
          obtain ⟨P, hP0, hP⟩ := (validatePubkey_iff x1 u1).mp h1
          refine ⟨P, true, hP0, hP, (isSec_of_point hP hP0 _ _).mpr ?_⟩
          obtain ⟨-, -, q1, q2, q3⟩ := hP
          have q3 := q3.resolve_left fun h => hP0 h.1
          obtain ⟨-, par, -⟩ := u2 P _ q1 q3
          have ex := writeBE_eq x1 (by rw [x2]; exact beValue_lt32 lx)
          rw [C47_roundtrip_be _ lx] at ex
          simp only [secBytes, if_true]
          rw [← ex, par]
          rw [show (33 : Nat) = 32 + 1 from rfl, List.take_succ_cons, List.drop_succ_cons, List.drop_zero]
          refine congrArg₂ List.cons ?_ rfl
          rcases c23 with rfl | rfl
          · exact (if_neg (by decide)).symm
          · exact (if_pos (by decide)).symm
        · rw [if_neg hl] at h; cases h
      · rw [if_neg c23] at h
        cases h

end UB
