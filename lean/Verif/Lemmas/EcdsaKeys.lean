import Verif.Lemmas.Ecdsa

/-
Public keys of private keys, Diffie-Hellman and key recovery (ecdsa.c:644-662, 825-867, 1028-1074).
-/

namespace UB
open Spec BN

attribute [local irreducible] secpP secpN BN.multiply BN.fastMod BN.mod BN.subtractmod BN.multK BN.addmod BN.inverse BN.lshift BN.subi BN.add
  BN.multHalf BN.cmov BN.isEqual BN.isZero BN.sqrt BN.subtract scalarMultiply pointMultiply CurvePoint.add readBE writeBE

theorem pointBytes_spec {p : CurvePoint} {P : Pt} (h : IsPoint p.x p.y P) : pointBytes p = secBytes false (xNat P) (yNat P) := by
  obtain ⟨x1, x2⟩ := isPoint_xNat h
  have := secpP_lt
  rw [pointBytes, writeBE_eq h.1 (h.2.2.1.trans this), writeBE_eq h.2.1 (h.2.2.2.1.trans this), x1, x2]
  rfl

theorem isSec_iff {b : Bytes} {c : Bool} {P : Pt} : IsSec b c P ↔ P ≠ 0 ∧ b = secBytes c (xNat P) (yNat P) := by
  constructor
  · rintro ⟨x, y, hat, rfl⟩
    rw [xNat_at hat, yNat_at hat]
    exact ⟨hat.ne_zero, rfl⟩
  · rintro ⟨h0, rfl⟩
    obtain ⟨x, y, hat⟩ := exists_at h0
    exact ⟨x, y, hat, by rw [xNat_at hat, yNat_at hat]⟩

/-- A private key is usable if it stands for a number in [1, n-1]. -/
def GoodKey (priv : Bytes) : Prop := priv.length = 32 ∧ 0 < beNat priv ∧ beNat priv < secpN

theorem GoodKey.ne {priv : Bytes} (h : GoodKey priv) : beNat priv • G ≠ 0 := smul_ne_zero_of (cast_ne h.2.1 h.2.2) G_ne_zero

theorem readBE_key {b : Bytes} (h : b.length = 32) : Normal (readBE b) ∧ limbValue (readBE b) = beNat b := readBE_spec b h

theorem getPublicKey65_spec {priv : Bytes} (hl : priv.length = 32) (hlt : beNat priv < secpN) {z : BN} (hz : Blind z) :
    getPublicKey65 priv z = .ok (secBytes false (xNat (beNat priv • G)) (yNat (beNat priv • G))) := by
  obtain ⟨p1, p2⟩ := readBE_key hl
  obtain ⟨r, r1, r2⟩ := scalarMultiply_spec _ p1 (by rw [p2]; exact hlt) z hz.normal hz.pos hz.lt
  rw [p2] at r2
  rw [getPublicKey65, r1, C.bind_ok, C.pure_eq, pointBytes_spec r2]

theorem parity_byte (b : UInt8) (h : b.toNat < 2) : 0x02 ||| b = (if b.toNat % 2 = 1 then 0x03 else 0x02) := by
  revert h; revert b; apply forall_byte; decide +kernel

theorem getPublicKey33_spec {priv : Bytes} (hl : priv.length = 32) (hlt : beNat priv < secpN) {z : BN} (hz : Blind z) :
    getPublicKey33 priv z = .ok (secBytes true (xNat (beNat priv • G)) (yNat (beNat priv • G))) := by
  obtain ⟨p1, p2⟩ := readBE_key hl
  obtain ⟨r, r1, r2⟩ := scalarMultiply_spec _ p1 (by rw [p2]; exact hlt) z hz.normal hz.pos hz.lt
  rw [p2] at r2
  obtain ⟨x1, x2⟩ := isPoint_xNat r2
  have ht := tiny_byte r.y
  rw [getPublicKey33, r1, C.bind_ok, C.pure_eq, writeBE_eq r2.1 (r2.2.2.1.trans secpP_lt), x1, parity_byte _ (by omega), ht, x2]
  simp only [Nat.mod_mod]
  rfl

/-- A scalar at or above the order fails the assertion of `scalar_multiply`. -/
theorem scalarMultiply_large {k : BN} (hk : Normal k) (hl : secpN ≤ limbValue k) (z : BN) : scalarMultiply k z = .ub := by
  have hless : BN.isLess k Secp.order = false := by
    rw [← Bool.not_eq_true, isLess_iff hk modulus_order.normal, value_order]; omega
  unfold scalarMultiply
  simp only [hless]
  rfl

theorem pointMultiply_large {k : BN} (hk : Normal k) (hl : secpN ≤ limbValue k) (p : CurvePoint) (z : BN) : pointMultiply k p z = .ub := by
  have hless : BN.isLess k Secp.order = false := by
    rw [← Bool.not_eq_true, isLess_iff hk modulus_order.normal, value_order]; omega
  unfold pointMultiply
  simp only [hless]
  rfl

theorem ecdhMultiply_spec {priv pub : Bytes} {c : Bool} {Q : Pt} (hQ : IsSec pub c Q) (t : Bytes) (hl : priv.length = 32) (hlt : beNat priv < secpN)
    {z : BN} (hz : Blind z) :
    ecdhMultiply priv (pub ++ t) z = .ok (0, some (secBytes false (xNat (beNat priv • Q)) (yNat (beNat priv • Q)))) := by
  obtain ⟨p, hp1, hp2⟩ := readPubkey_complete hQ t CurvePoint.infinity
  have hQ0 : Q ≠ 0 := (isSec_iff.mp hQ).1
  obtain ⟨p1, p2⟩ := readBE_key hl
  obtain ⟨r, r1, r2⟩ := pointMultiply_spec _ p1 (by rw [p2]; exact hlt) hp2 hQ0 z hz.normal hz.pos hz.lt
  rw [p2] at r2
  rw [ecdhMultiply, hp1, C.bind_ok]
  simp only [Bool.not_true, Bool.false_eq_true, if_false]
  rw [r1, C.bind_ok, C.pure_eq, pointBytes_spec r2]

/-- `ecdsa_uncompress_pubkey` on an encoding of a point. -/
theorem uncompressPubkey_spec {b : Bytes} {c : Bool} {P : Pt} (h : IsSec b c P) (t old : Bytes) :
    uncompressPubkey (b ++ t) old = .ok (true, secBytes false (xNat P) (yNat P)) := by
  obtain ⟨p, hp1, hp2⟩ := readPubkey_complete h t CurvePoint.infinity
  rw [uncompressPubkey, hp1, C.bind_ok]
  simp only [if_true, C.pure_eq, pointBytes_spec hp2]

/-- Key recovery: the signature and the recovery byte determine R = k·G or −k·G; all but the last multiplication. -/
theorem recover_core {rb sb digest : Bytes} (hr : rb.length = 32) (hs : sb.length = 32) (hd : digest.length = 32) (recid : UInt8)
    {R : Pt} (hr0 : 0 < beNat rb) (hrl : beNat rb < secpN) (hs0 : 0 < beNat sb) (hsl : beNat sb < secpN)
    (hR : R ≠ 0) (hx : xNat R = beNat rb + (if recid &&& 2 != 0 then secpN else 0)) (hy : yNat R % 2 = (recid &&& 1).toNat % 2)
    {z1 z2 : BN} (h1 : Blind z1) (h2 : Blind z2) (z3 : BN) :
    ∃ ri E, recoverPub (rb ++ sb) digest recid z1 z2 z3 = (do let F ← pointMultiply ri E z3; return (0, some (pointBytes F))) ∧
      Normal ri ∧ limbValue ri = ((beNat rb : Fn)⁻¹).val ∧ IsPoint E.x E.y (((beNat sb : Fn)).val • R + (-(beNat digest : Fn)).val • G) := by
  obtain ⟨r1, r2⟩ := readBE_key hr
  obtain ⟨s1, s2⟩ := readBE_key hs
  obtain ⟨d1, d2⟩ := readBE_key hd
  have dl : beNat digest < 2 ^ 256 := beValue_lt32 hd
  unfold recoverPub
  rw [load_lo hr, C.bind_ok, load_hi hr hs, C.bind_ok]
  have c1 : (!isLess (readBE rb) Secp.order || (readBE rb).isZero) = false := by
    rw [Bool.or_eq_false_iff, Bool.not_eq_false', isLess_iff r1 modulus_order.normal, value_order, r2, ← Bool.not_eq_true, isZero_iff, r2]
    omega
  have c2 : (!isLess (readBE sb) Secp.order || (readBE sb).isZero) = false := by
    rw [Bool.or_eq_false_iff, Bool.not_eq_false', isLess_iff s1 modulus_order.normal, value_order, s2, ← Bool.not_eq_true, isZero_iff, s2]
    omega
  rw [if_neg (by rw [c1]; decide), if_neg (by rw [c2]; decide)]
  simp only
  obtain ⟨x1, x2⟩ : Normal (if (recid &&& 2 != 0) = true then BN.add (readBE rb) Secp.order else readBE rb) ∧
      limbValue (if (recid &&& 2 != 0) = true then BN.add (readBE rb) Secp.order else readBE rb) = xNat R := by
    rw [hx]
    split
    · obtain ⟨a1, a2⟩ := add_spec (readBE rb) Secp.order r1 modulus_order.normal
      refine ⟨a1, ?_⟩
      rw [a2, r2, value_order]
      have := secpN_lt
      exact Nat.mod_eq_of_lt (by omega)
    · exact ⟨r1, by rw [r2, add_zero]⟩
  have hxP := xNat_lt R
  generalize (if (recid &&& 2 != 0) = true then BN.add (readBE rb) Secp.order else readBE rb) = X at *
  have c3 : isLess X Secp.prime = true := by rw [isLess_iff x1 modulus_prime.normal, value_prime, x2]; exact hxP
  rw [if_neg (by rw [c3]; simp)]
  obtain ⟨x, y, hat⟩ := exists_at hR
  rw [xNat_at hat] at x2
  rw [yNat_at hat] at hy
  have ex : ((limbValue X : Nat) : Fp) = x := by rw [x2]; exact ZMod.natCast_zmod_val x
  have xl : limbValue X < secpP := by rw [x2]; exact ZMod.val_lt x
  obtain ⟨u1, u2⟩ := uncompressCoords_spec (recid &&& 1) x1 (xl.trans secpP_lt)
  obtain ⟨v1, v2, v3⟩ := u2 R y xl (by rw [ex]; exact hat)
  generalize uncompressCoords (recid &&& 1) X = Y at *
  have ey : ((y.val : Nat) : Fp) = y := ZMod.natCast_zmod_val y
  have hYy : (limbValue Y : Fp) = y := by
    refine v3.resolve_right fun hc => ?_
    have h1 : limbValue Y = secpP - y.val := by
      have h2 : ((limbValue Y : Nat) : Fp) = ((secpP - y.val : Nat) : Fp) := by
        rw [hc, Nat.cast_sub (ZMod.val_lt y).le, ZMod.natCast_self, zero_sub, ey]
      rw [ZMod.natCast_eq_natCast_iff', Nat.mod_eq_of_lt v1, Nat.mod_eq_of_lt] at h2
      · exact h2
      · have : y.val ≠ 0 := fun h => hat.y_ne ((ZMod.val_eq_zero y).mp h)
        have := pm_prime.pr.pos
        omega
    have h2 := ZMod.val_lt y
    have h3 := pm_prime.odd
    omega
  have hp : IsPoint X Y R := ⟨x1, u1, xl, v1, .inr (by rw [ex, hYy]; exact hat)⟩
  have hv : validatePubkey ⟨X, Y⟩ = true := (validatePubkey_iff x1 u1).mpr ⟨R, hR, hp⟩
  rw [if_neg (by rw [hv]; decide), load32 hd, C.bind_ok]
  have ro : Res secpN 2 Secp.order (0 : Fn) :=
    ⟨modulus_order.normal, by rw [value_order]; have := pm_order.pr.pos; omega, by rw [value_order, ZMod.natCast_self]⟩
  have rd : Res secpN 2 (readBE digest) (beNat digest : Fn) := ⟨d1, by rw [d2]; exact dl.trans two256_lt_2N, by rw [d2]⟩
  have re := (((ro.subtractmod pm_order rd (by norm_num)).fastMod pm_order).mod pm_order).congr (zero_sub _)
  have rr : Res secpN 1 (readBE rb) (beNat rb : Fn) := r2 ▸ Res.self r1 (by omega)
  obtain ⟨ri, i1, i2⟩ := rr.inverse pm_order (cast_ne hr0 hrl)
  rw [i1, C.bind_ok]
  generalize BN.mod (fastMod (subtractmod Secp.order (readBE digest) Secp.order) Secp.order) Secp.order = e at *
  obtain ⟨A, a1, a2⟩ := pointMultiply_spec (p := ⟨X, Y⟩) (readBE sb) s1 (by omega) hp hR z1 h1.normal h1.pos h1.lt
  obtain ⟨B, b1, b2⟩ := scalarMultiply_spec e re.normal (by have := re.lt; omega) z2 h2.normal h2.pos h2.lt
  obtain ⟨E, e1, e2⟩ := point_add_spec b2 a2
  have ve : limbValue e = (-(beNat digest : Fn)).val := by
    rw [← re.val, ZMod.val_natCast_of_lt (by have := re.lt; omega)]
  have vs : limbValue (readBE sb) = ((beNat sb : Fn)).val := by rw [s2, ZMod.val_natCast_of_lt hsl]
  have vr : limbValue ri = ((beNat rb : Fn)⁻¹).val := by
    rw [← i2.val, ZMod.val_natCast_of_lt (by have := i2.lt; omega)]
  rw [ve, vs, add_comm] at e2
  refine ⟨ri, E, ?_, i2.normal, vr, e2⟩
  rw [a1, C.bind_ok, b1, C.bind_ok, e1, C.bind_ok]

/-- Key recovery: the signature and the recovery byte determine R = k·G or −k·G and with it the public key. -/
theorem recover_spec {rb sb digest : Bytes} (hr : rb.length = 32) (hs : sb.length = 32) (hd : digest.length = 32) (recid : UInt8)
    {R : Pt} (hr0 : 0 < beNat rb) (hrl : beNat rb < secpN) (hs0 : 0 < beNat sb) (hsl : beNat sb < secpN)
    (hR : R ≠ 0) (hx : xNat R = beNat rb + (if recid &&& 2 != 0 then secpN else 0)) (hy : yNat R % 2 = (recid &&& 1).toNat % 2)
    (hne : ((beNat sb : Fn)).val • R + (-(beNat digest : Fn)).val • G ≠ 0)
    {z1 z2 z3 : BN} (h1 : Blind z1) (h2 : Blind z2) (h3 : Blind z3) :
    recoverPub (rb ++ sb) digest recid z1 z2 z3
      = .ok (0, some (secBytes false (xNat (((beNat rb : Fn)⁻¹).val • (((beNat sb : Fn)).val • R + (-(beNat digest : Fn)).val • G)))
        (yNat (((beNat rb : Fn)⁻¹).val • (((beNat sb : Fn)).val • R + (-(beNat digest : Fn)).val • G))))) := by
  obtain ⟨ri, E, h, hn, hv, hp⟩ := recover_core hr hs hd recid hr0 hrl hs0 hsl hR hx hy h1 h2 z3
  obtain ⟨F, f1, f2⟩ := pointMultiply_spec ri hn (by rw [hv]; exact ZMod.val_lt _) hp hne z3 h3.normal h3.pos h3.lt
  rw [h, f1, C.bind_ok, C.pure_eq, pointBytes_spec f2, hv]

theorem nsmul_neg' (a : Nat) (P : Pt) : a • -P = -(a • P) := by
  rw [← natCast_zsmul, ← natCast_zsmul, zsmul_neg]

/-- Key recovery from a signature in the sense of SEC 1. -/
theorem recover_sign {digest : Bytes} (hd : digest.length = 32) {d k : Nat} (hd0 : (d : Fn) ≠ 0) (hk0 : 0 < k) (hkl : k < secpN) {t : Nat × Nat × Nat}
    (h : ecdsaSign d (beNat digest) k = some t) {z1 z2 z3 : BN} (h1 : Blind z1) (h2 : Blind z2) (h3 : Blind z3) :
    recoverPub (ecdsaBytes t).1 digest (ecdsaBytes t).2 z1 z2 z3 = .ok (0, some (secBytes false (xNat (d • G)) (yNat (d • G)))) := by
  have hrange := ecdsaSign_range h
  have hN := secpN_lt
  have hkF : (k : Fn) ≠ 0 := cast_ne hk0 hkl
  have hR0 : k • G ≠ 0 := smul_ne_zero_of hkF G_ne_zero
  have hxP := xNat_lt (k • G)
  have h2N := secpP_lt_2N
  have hrF : (t.1 : Fn) ≠ 0 := cast_ne hrange.1 hrange.2.1
  have br : beNat (beBytes 32 t.1) = t.1 := by
    rw [beNat_beBytes, Nat.mod_eq_of_lt (lt_of_lt_of_eq (hrange.2.1.trans hN) (by norm_num))]
  have bs : beNat (beBytes 32 t.2.1) = t.2.1 := by
    rw [beNat_beBytes, Nat.mod_eq_of_lt (lt_of_lt_of_eq (show t.2.1 < 2 ^ 256 by omega) (by norm_num))]
  -- the point R' = ±k·G with the wanted properties
  suffices hs : ∃ (R : Pt), R ≠ 0 ∧ xNat R = t.1 + (if UInt8.ofNat t.2.2 &&& 2 != 0 then secpN else 0) ∧
      yNat R % 2 = (UInt8.ofNat t.2.2 &&& 1).toNat % 2 ∧
      ((t.2.1 : Fn)).val • R = ((beNat digest : Fn) + t.1 * d).val • G by
    obtain ⟨R, q0, q1, q2, q3⟩ := hs
    have e1 : ((t.2.1 : Fn)).val • R + (-(beNat digest : Fn)).val • G = ((t.1 : Fn) * d).val • G := by
      rw [q3, smul_add_val]
      congr 2
      ring
    have := recover_spec (Spec.length_beBytes 32 t.1) (Spec.length_beBytes 32 t.2.1) hd (UInt8.ofNat t.2.2) (R := R)
      (by rw [br]; exact hrange.1) (by rw [br]; exact hrange.2.1) (by rw [bs]; exact hrange.2.2.1) (by rw [bs]; have := hrange.2.2.2; omega)
      q0 (by rw [br]; exact q1) q2 (by rw [bs, e1]; exact smul_val_ne (mul_ne_zero hrF hd0) G_ne_zero) h1 h2 h3
    rw [bs, br, e1, smul_mul_val, show (t.1 : Fn)⁻¹ * ((t.1 : Fn) * d) = (d : Fn) by field_simp, smul_val] at this
    exact this
  have bitAnd1 (m : Nat) (hm : m < 4) : (UInt8.ofNat m &&& 1).toNat = m % 2 := by
    interval_cases m <;> rfl
  have bitAnd2 (m : Nat) (hm : m < 4) : (UInt8.ofNat m &&& 2 != 0) = decide (2 ≤ m) := by
    interval_cases m <;> rfl
  unfold ecdsaSign at h
  simp only at h
  split at h
  · cases h
  rename_i h0
  have hxv : xNat (k • G) = xNat (k • G) % secpN + (if secpN ≤ xNat (k • G) then secpN else 0) := by
    split
    · rw [Nat.mod_eq_sub_mod (by omega), Nat.mod_eq_of_lt (by omega)]; omega
    · rw [Nat.mod_eq_of_lt (by omega)]; omega
  set r := xNat (k • G) % secpN with hr
  set s := ((beNat digest : Fn) + (r : Fn) * d) / (k : Fn) with hs
  have hnum : (beNat digest : Fn) + (r : Fn) * d = s * k := by rw [hs, div_mul_cancel₀ _ hkF]
  generalize hbit : (if secpN ≤ xNat (k • G) then 2 else 0 : Nat) = bit1 at *
  have hbit' : (bit1 = 2 ∧ secpN ≤ xNat (k • G)) ∨ (bit1 = 0 ∧ ¬ secpN ≤ xNat (k • G)) := by
    rw [← hbit]; split
    · exact .inl ⟨rfl, ‹_›⟩
    · exact .inr ⟨rfl, ‹_›⟩
  split at h
  · obtain rfl := Option.some.inj h
    simp only
    refine ⟨-(k • G), neg_ne_zero.mpr hR0, ?_, ?_, ?_⟩
    · rw [xNat_neg, bitAnd2 _ (by omega), hxv]
      congr 1
      rcases hbit' with ⟨hb, hc⟩ | ⟨hb, hc⟩
      · rw [if_pos hc, if_pos (by simp; omega)]
      · rw [if_neg hc, if_neg (by simp; omega)]
    · rw [bitAnd1 _ (by omega)]
      omega
    · have hc : ((secpN - s.val : Nat) : Fn) = -s := by
        rw [Nat.cast_sub (ZMod.val_lt s).le, ZMod.natCast_self, zero_sub, ZMod.natCast_zmod_val]
      rw [hc, smul_neg_val, hnum, nsmul_neg', neg_neg, ← smul_val k, smul_mul_val]
  · obtain rfl := Option.some.inj h
    simp only
    refine ⟨k • G, hR0, ?_, ?_, ?_⟩
    · rw [bitAnd2 _ (by omega)]
      nth_rewrite 1 [hxv]
      congr 1
      rcases hbit' with ⟨hb, hc⟩ | ⟨hb, hc⟩
      · rw [if_pos hc, if_pos (by simp; omega)]
      · rw [if_neg hc, if_neg (by simp; omega)]
    · rw [bitAnd1 _ (by omega)]
      omega
    · rw [ZMod.natCast_zmod_val, hnum, ← smul_val k, smul_mul_val]

end UB
