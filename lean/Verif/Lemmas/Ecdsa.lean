import Verif.Lemmas.PubKey
import Verif.Lemmas.CurveOrder
import Verif.Spec.Ecdsa
import Verif.Props.Hash

/-
ECDSA signing, verification and key recovery (ecdsa.c:732-823, 1028-1129).
-/

namespace UB
open Spec BN

attribute [local irreducible] secpP secpN BN.multiply BN.fastMod BN.mod BN.subtractmod BN.multK BN.addmod BN.inverse BN.lshift BN.subi BN.add
  BN.multHalf BN.cmov BN.isEqual BN.isZero BN.sqrt BN.subtract scalarMultiply pointMultiply CurvePoint.add readBE writeBE

/-- What is assumed of the numbers drawn for blinding. -/
structure Blind (z : BN) : Prop where
  normal : Normal z
  pos : 0 < limbValue z
  lt : limbValue z < secpP

theorem xNat_at {P : Pt} {x y : Fp} (h : At P x y) : xNat P = x.val := by
  obtain ⟨_, rfl⟩ := h; rfl

theorem yNat_at {P : Pt} {x y : Fp} (h : At P x y) : yNat P = y.val := by
  obtain ⟨_, rfl⟩ := h; rfl

theorem isPoint_xNat {p : CurvePoint} {P : Pt} (h : IsPoint p.x p.y P) : limbValue p.x = xNat P ∧ limbValue p.y = yNat P := by
  obtain ⟨-, -, lx, ly, h⟩ := h
  rcases h with ⟨rfl, h1, h2⟩ | h
  · exact ⟨h1, h2⟩
  · rw [xNat_at h, yNat_at h, ZMod.val_natCast_of_lt lx, ZMod.val_natCast_of_lt ly]
    exact ⟨rfl, rfl⟩

theorem xNat_neg (P : Pt) : xNat (-P) = xNat P := by
  by_cases h : P = 0
  · rw [h, neg_zero]
  obtain ⟨x, y, hat⟩ := exists_at h
  rw [xNat_at hat, xNat_at hat.neg]

theorem yNat_neg {P : Pt} (h : P ≠ 0) : yNat (-P) = secpP - yNat P := by
  obtain ⟨x, y, hat⟩ := exists_at h
  rw [yNat_at hat, yNat_at hat.neg, ZMod.neg_val, if_neg hat.y_ne]

theorem yNat_lt (P : Pt) : yNat P < secpP := by
  by_cases h : P = 0
  · rw [h]; exact pm_prime.pr.pos
  obtain ⟨x, y, hat⟩ := exists_at h
  rw [yNat_at hat]; exact ZMod.val_lt y

theorem xNat_lt (P : Pt) : xNat P < secpP := by
  by_cases h : P = 0
  · rw [h]; exact pm_prime.pr.pos
  obtain ⟨x, y, hat⟩ := exists_at h
  rw [xNat_at hat]; exact ZMod.val_lt x

/-- Scalars only count modulo the order. -/
theorem smul_val (a : Nat) (P : Pt) : ((a : Fn)).val • P = a • P := by
  rw [ZMod.val_natCast]
  conv_rhs => rw [← Nat.mod_add_div a secpN, add_nsmul, mul_nsmul, nsmul_order, nsmul_zero, add_zero]

theorem smul_congr {a b : Nat} (h : (a : Fn) = (b : Fn)) (P : Pt) : a • P = b • P := by
  rw [← smul_val a, ← smul_val b, h]

theorem smul_add_val (u v : Fn) (P : Pt) : u.val • P + v.val • P = (u + v).val • P := by
  rw [← add_nsmul]
  apply smul_congr
  push_cast [ZMod.natCast_zmod_val]
  rfl

theorem smul_mul_val (u v : Fn) (P : Pt) : u.val • (v.val • P) = (u * v).val • P := by
  rw [← mul_nsmul']
  apply smul_congr
  push_cast [ZMod.natCast_zmod_val]
  rfl

theorem smul_neg_val (u : Fn) (P : Pt) : (-u).val • P = -(u.val • P) := by
  rw [eq_neg_iff_add_eq_zero, smul_add_val, neg_add_cancel, ZMod.val_zero, zero_nsmul]

theorem smul_ne_zero_of {a : Nat} {P : Pt} (h : (a : Fn) ≠ 0) (hP : P ≠ 0) : a • P ≠ 0 := by
  intro hc
  have := (zsmul_eq_zero_iff hP (a : Int)).mp (by rw [natCast_zsmul]; exact hc)
  exact h ((ZMod.natCast_eq_zero_iff _ _).mpr (Int.natCast_dvd_natCast.mp this))

theorem smul_val_ne {u : Fn} {P : Pt} (h : u ≠ 0) (hP : P ≠ 0) : u.val • P ≠ 0 :=
  smul_ne_zero_of (by rw [ZMod.natCast_zmod_val]; exact h) hP

theorem G_ne_zero : G ≠ 0 := at_G.ne_zero

theorem cast_ne {a : Nat} (h0 : 0 < a) (hl : a < secpN) : (a : Fn) ≠ 0 := by
  rw [Ne, ZMod.natCast_eq_zero_iff]
  exact fun h => by have := Nat.le_of_dvd h0 h; omega

theorem load32 {b : Bytes} (h : b.length = 32) : load b 0 32 = .ok b := by
  unfold load
  rw [if_pos (by omega), List.drop_zero, List.take_of_length_le (by omega)]

theorem load_lo {a b : Bytes} (ha : a.length = 32) : load (a ++ b) 0 32 = .ok a := by
  have := load_mid [] a b
  rw [ha] at this
  exact this

theorem load_hi {a b : Bytes} (ha : a.length = 32) (hb : b.length = 32) : load (a ++ b) 32 32 = .ok b := by
  have := load_mid a b []
  rw [ha, hb, List.append_nil] at this
  exact this

/-- The result of a verification with a readable key. -/
theorem verify_spec {pub rb sb digest : Bytes} {c : Bool} {Q : Pt} (hQ : IsSec pub c Q) (t : Bytes) (hr : rb.length = 32) (hs : sb.length = 32)
    (hd : digest.length = 32) {z1 z2 : BN} (h1 : Blind z1) (h2 : Blind z2) :
    ∃ v, verifyDigest (pub ++ t) (rb ++ sb) digest z1 z2 = .ok v ∧
      (v = 0 ↔ EcdsaValid Q (beNat digest) (beNat rb) (beNat sb) ∧ ¬ secpN ∣ beNat digest) := by
  obtain ⟨p, hp1, hp2⟩ := readPubkey_complete hQ t CurvePoint.infinity
  have hQ0 : Q ≠ 0 := by obtain ⟨_, _, h, -⟩ := hQ; exact h.ne_zero
  obtain ⟨r1, r2⟩ := readBE_spec rb hr
  obtain ⟨s1, s2⟩ := readBE_spec sb hs
  obtain ⟨d1, d2⟩ := readBE_spec digest hd
  have dl := beValue_lt32 hd
  unfold verifyDigest
  rw [hp1, C.bind_ok]
  simp only [Bool.not_true, Bool.false_eq_true, if_false]
  rw [load_lo hr, C.bind_ok, load_hi hr hs, C.bind_ok, load32 hd, C.bind_ok]
  by_cases hc : ((readBE rb).isZero || (readBE sb).isZero || !isLess (readBE rb) Secp.order || !isLess (readBE sb) Secp.order) = true
  · rw [if_pos hc]
    refine ⟨2, rfl, by simp, ?_⟩
    rintro ⟨⟨a1, a2, a3, a4, -⟩, -⟩
    exfalso
    simp only [Bool.or_eq_true, Bool.not_eq_true', ← Bool.not_eq_true, isZero_iff, isLess_iff r1 modulus_order.normal,
      isLess_iff s1 modulus_order.normal, r2, s2, value_order] at hc
    have b1 : beValue rb = beNat rb := rfl
    have b2 : beValue sb = beNat sb := rfl
    omega
  rw [if_neg hc]
  simp only [Bool.or_eq_true, Bool.not_eq_true', ← Bool.not_eq_true, isZero_iff, isLess_iff r1 modulus_order.normal,
    isLess_iff s1 modulus_order.normal, r2, s2, value_order, not_or, not_not] at hc
  obtain ⟨⟨⟨c1, c2⟩, c3⟩, c4⟩ := hc
  have er : beValue rb = beNat rb := rfl
  have es : beValue sb = beNat sb := rfl
  have ed : beValue digest = beNat digest := rfl
  rw [er] at c1 c3 r2
  rw [es] at c2 c4 s2
  rw [ed] at d2 dl
  generalize beNat rb = r at *
  generalize beNat sb = s at *
  generalize beNat digest = e at *
  have rs : Res secpN 1 (readBE sb) (s : Fn) := s2 ▸ Res.self s1 (by omega)
  have rr : Res secpN 1 (readBE rb) (r : Fn) := r2 ▸ Res.self r1 (by omega)
  have rd : Res secpN 2 (readBE digest) (e : Fn) := ⟨d1, by rw [d2]; exact dl.trans two256_lt_2N, by rw [d2]⟩
  have hs0 : (s : Fn) ≠ 0 := cast_ne (by omega) c4
  have hr0 : (r : Fn) ≠ 0 := cast_ne (by omega) c3
  obtain ⟨si, i1, i2⟩ := rs.inverse pm_order hs0
  rw [i1, C.bind_ok]
  have rz := ((i2.multiply pm_order rd (by norm_num)).mod pm_order).congr (show _ = (e : Fn) / s by ring)
  have rs2 := ((rr.multiply pm_order i2 (by norm_num)).mod pm_order).congr (show _ = (r : Fn) / s by ring)
  generalize BN.mod (multiply si (readBE digest) Secp.order) Secp.order = zz at *
  generalize BN.mod (multiply (readBE rb) si Secp.order) Secp.order = ss at *
  by_cases hz : zz.isZero = true
  · rw [if_pos hz]
    refine ⟨3, rfl, by simp, ?_⟩
    rintro ⟨-, hnd⟩
    exfalso
    rw [Res.isZero rz, div_eq_zero_iff] at hz
    exact hnd ((ZMod.natCast_eq_zero_iff _ _).mp (hz.resolve_right hs0))
  rw [if_neg hz]
  have hnd : ¬ secpN ∣ e := by
    intro h
    apply hz
    rw [Res.isZero rz, (ZMod.natCast_eq_zero_iff _ _).mpr h, zero_div]
  have vz : limbValue zz = ((e : Fn) / s).val := by
    rw [← rz.val, ZMod.val_natCast_of_lt (by have := rz.lt; omega)]
  have vs : limbValue ss = ((r : Fn) / s).val := by
    rw [← rs2.val, ZMod.val_natCast_of_lt (by have := rs2.lt; omega)]
  obtain ⟨A, a1, a2⟩ := scalarMultiply_spec zz rz.normal (by have := rz.lt; omega) z1 h1.normal h1.pos h1.lt
  obtain ⟨B, b1, b2⟩ := pointMultiply_spec ss rs2.normal (by have := rs2.lt; omega) hp2 hQ0 z2 h2.normal h2.pos h2.lt
  obtain ⟨E, e1, e2⟩ := point_add_spec b2 a2
  rw [a1, C.bind_ok, b1, C.bind_ok, e1, C.bind_ok]
  rw [vz, vs, add_comm] at e2
  obtain ⟨x1, -⟩ := isPoint_xNat e2
  have rE : Res secpN 2 E.x (xNat (((e : Fn) / s).val • G + ((r : Fn) / s).val • Q) : Fn) := by
    refine ⟨e2.1, ?_, by rw [x1]⟩
    rw [x1]
    exact (xNat_lt _).trans secpP_lt_2N
  have heq := Res.isEqual (rE.mod pm_order) rr
  by_cases hE : isEqual (BN.mod E.x Secp.order) (readBE rb) = true
  · rw [hE]
    refine ⟨0, rfl, ?_⟩
    simp only [true_iff]
    rw [heq] at hE
    have hx : xNat (((e : Fn) / s).val • G + ((r : Fn) / s).val • Q) % secpN = r := by
      rw [ZMod.natCast_eq_natCast_iff', Nat.mod_eq_of_lt c3] at hE
      exact hE
    refine ⟨⟨by omega, c3, by omega, c4, _, rfl, ?_, hx⟩, hnd⟩
    intro h0
    rw [h0] at hx
    have : xNat 0 = 0 := rfl
    rw [this, Nat.zero_mod] at hx
    omega
  · rw [Bool.not_eq_true] at hE
    rw [hE]
    refine ⟨5, rfl, by simp, ?_⟩
    rintro ⟨⟨-, -, -, -, R, rfl, -, hx⟩, -⟩
    exfalso
    rw [← Bool.not_eq_true, heq] at hE
    apply hE
    rw [ZMod.natCast_eq_natCast_iff', Nat.mod_eq_of_lt c3]
    exact hx

theorem tiny_byte (y : BN) : (y.headD 0 &&& 1).toUInt8.toNat = limbValue y % 2 := by
  rw [← low_bit]
  have h1 : (y.headD 0 &&& 1).toNat ≤ 1 := by
    rw [UInt32.toNat_and]
    exact Nat.and_le_right
  rw [UInt32.toNat_toUInt8]
  exact Nat.mod_eq_of_lt (by omega)

theorem bits_or (b : UInt8) (h : b.toNat < 2) : (b ||| 2).toNat = b.toNat + 2 := by
  revert h; revert b; apply forall_byte; decide +kernel

theorem bits_xor (b : UInt8) (h : b.toNat < 4) : (b ^^^ 1).toNat = (1 - b.toNat % 2) + 2 * (b.toNat / 2) := by
  revert h; revert b; apply forall_byte; decide +kernel

/-- One round of the signing loop. -/
theorem signRound_spec {priv digest : Bytes} (hp : priv.length = 32) (hd : digest.length = 32) {k zr randk : BN} (hk : Normal k)
    (hk0 : 0 < limbValue k) (hkl : limbValue k < secpN) (hzr : Blind zr) (hn : Normal randk) (hn0 : 0 < limbValue randk)
    (hnl : limbValue randk < secpN) :
    ∃ o, signRound priv (readBE digest) k zr randk = .ok o ∧
      match o with
      | none => ecdsaSign (beNat priv) (beNat digest) (limbValue k) = none
      | some (r, s, b) => Normal r ∧ Normal s ∧ ecdsaSign (beNat priv) (beNat digest) (limbValue k) = some (limbValue r, limbValue s, b.toNat) := by
  obtain ⟨R, R1, R2⟩ := scalarMultiply_spec k hk hkl zr hzr.normal hzr.pos hzr.lt
  obtain ⟨x1, x2⟩ := isPoint_xNat R2
  obtain ⟨p1, p2⟩ := readBE_spec priv hp
  obtain ⟨d1, d2⟩ := readBE_spec digest hd
  have pl := beValue_lt32 hp
  have dl := beValue_lt32 hd
  have ep : beValue priv = beNat priv := rfl
  have ed : beValue digest = beNat digest := rfl
  rw [ep] at p2 pl
  rw [ed] at d2 dl
  unfold signRound ecdsaSign
  rw [R1, C.bind_ok]
  have hxP := xNat_lt (limbValue k • G)
  have hN := secpN_lt_P
  have h2N := secpP_lt_2N
  have hR0 : limbValue k • G ≠ 0 := smul_ne_zero_of (cast_ne hk0 hkl) G_ne_zero
  have hyneg := yNat_neg hR0
  have hylt := yNat_lt (limbValue k • G)
  have hodd := pm_prime.odd
  have hob := tiny_byte R.y
  rw [x2] at hob
  obtain ⟨rn, rv⟩ : Normal (if (!isLess R.x Secp.order) = true then subtract R.x Secp.order else R.x) ∧
      limbValue (if (!isLess R.x Secp.order) = true then subtract R.x Secp.order else R.x) = xNat (limbValue k • G) % secpN := by
    have hl := isLess_iff R2.1 modulus_order.normal
    rw [value_order, x1] at hl
    by_cases h : isLess R.x Secp.order = true
    · rw [h]
      exact ⟨R2.1, by simp only [Bool.not_true, Bool.false_eq_true, if_false]; rw [x1, Nat.mod_eq_of_lt (hl.mp h)]⟩
    · obtain ⟨n1, n2⟩ := subtract_le R.x Secp.order R2.1 modulus_order.normal (by rw [value_order, x1]; have := mt hl.mpr h; omega)
      have hge := mt hl.mpr h
      rw [Bool.not_eq_true] at h
      rw [h]
      refine ⟨n1, ?_⟩
      simp only [Bool.not_false, if_true]
      rw [n2, value_order, x1, Nat.mod_eq_sub_mod (by omega), Nat.mod_eq_of_lt (by omega)]
  have bv : (if (!isLess R.x Secp.order) = true then (R.y.headD 0 &&& 1).toUInt8 ||| 2 else (R.y.headD 0 &&& 1).toUInt8).toNat
      = yNat (limbValue k • G) % 2 + if secpN ≤ xNat (limbValue k • G) then 2 else 0 := by
    have hl := isLess_iff R2.1 modulus_order.normal
    rw [value_order, x1] at hl
    by_cases h : isLess R.x Secp.order = true
    · rw [if_neg (by rw [h]; decide), if_neg (by have := hl.mp h; omega), hob, add_zero]
    · rw [if_pos (by rw [Bool.not_eq_true] at h; rw [h]; rfl), if_pos (by have := mt hl.mpr h; omega), bits_or _ (by omega), hob]
  simp only
  generalize (if (!isLess R.x Secp.order) = true then subtract R.x Secp.order else R.x) = r at *
  generalize (if (!isLess R.x Secp.order) = true then (R.y.headD 0 &&& 1).toUInt8 ||| 2 else (R.y.headD 0 &&& 1).toUInt8) = bits at *
  generalize hbit1 : (if secpN ≤ xNat (limbValue k • G) then 2 else 0 : Nat) = bit1 at *
  have hbit1' : bit1 = 0 ∨ bit1 = 2 := by rw [← hbit1]; split <;> simp
  have rlt : limbValue r < secpN := by rw [rv]; exact Nat.mod_lt _ (by omega)
  rw [← rv]
  by_cases hr0 : r.isZero = true
  · rw [if_pos hr0]
    rw [isZero_iff] at hr0
    exact ⟨none, rfl, by rw [if_pos (Or.inl hr0)]⟩
  rw [if_neg hr0]
  rw [isZero_iff] at hr0
  have rr : Res secpN 1 r (limbValue r : Fn) := Res.self rn rlt
  have rk : Res secpN 1 k (limbValue k : Fn) := Res.self hk hkl
  have rn' : Res secpN 1 randk (limbValue randk : Fn) := Res.self hn hnl
  have rp : Res secpN 2 (readBE priv) (beNat priv : Fn) := ⟨p1, by rw [p2]; exact pl.trans two256_lt_2N, by rw [p2]⟩
  have rd : Res secpN 2 (readBE digest) (beNat digest : Fn) := ⟨d1, by rw [d2]; exact dl.trans two256_lt_2N, by rw [d2]⟩
  have hkF : (limbValue k : Fn) ≠ 0 := cast_ne hk0 hkl
  have hnF : (limbValue randk : Fn) ≠ 0 := cast_ne hn0 hnl
  obtain ⟨ki, i1, i2⟩ := (rn'.multiply pm_order rk (by norm_num)).inverse pm_order (mul_ne_zero hnF hkF)
  have rs := (rn'.multiply pm_order (i2.multiply pm_order ((rr.multiply pm_order rp (by norm_num)).add pm_order rd (by norm_num)) (by norm_num))
    (by norm_num)).mod pm_order
  have rs := rs.congr (show _ = ((beNat digest : Fn) + limbValue r * beNat priv) / (limbValue k : Fn) by field_simp; ring)
  rw [i1, C.bind_ok]
  generalize BN.mod (multiply randk (multiply ki (BN.add (multiply r (readBE priv) Secp.order) (readBE digest)) Secp.order) Secp.order) Secp.order = s at *
  have sl := rs.lt
  rw [one_mul] at sl
  have sv : (((beNat digest : Fn) + limbValue r * beNat priv) / (limbValue k : Fn)).val = limbValue s := by
    rw [← rs.val, ZMod.val_natCast_of_lt sl]
  rw [sv]
  by_cases hs0 : s.isZero = true
  · rw [if_pos hs0]
    rw [isZero_iff] at hs0
    exact ⟨none, rfl, by rw [if_pos (Or.inr hs0)]⟩
  rw [if_neg hs0]
  rw [isZero_iff] at hs0
  rw [if_neg (show ¬ (limbValue r = 0 ∨ limbValue s = 0) by omega)]
  have hhalf := isLess_iff normal_orderHalf rs.normal
  have hNodd := pm_order.odd
  rw [value_orderHalf] at hhalf
  by_cases hh : isLess Secp.orderHalf s = true
  · rw [if_pos hh]
    have hlt := hhalf.mp hh
    obtain ⟨n1, n2⟩ := subtract_le Secp.order s modulus_order.normal rs.normal (by rw [value_order]; omega)
    refine ⟨_, rfl, rn, n1, ?_⟩
    rw [if_pos (by omega), n2, value_order, bits_xor _ (by omega), bv, hyneg]
    congr 3
    omega
  · rw [if_neg hh]
    have hnlt := mt hhalf.mpr hh
    refine ⟨_, rfl, rn, rs.normal, ?_⟩
    rw [if_neg (by omega), bv]

/-- What is assumed of the numbers drawn in a signing round. -/
structure Draws (rnd : Nat → BN × BN) : Prop where
  blind : ∀ i, Blind (rnd i).1
  normal : ∀ i, Normal (rnd i).2
  pos : ∀ i, 0 < limbValue (rnd i).2
  lt : ∀ i, limbValue (rnd i).2 < secpN

/-- The bytes of a signature and the recovery byte. -/
def ecdsaBytes (t : Nat × Nat × Nat) : Bytes × UInt8 := (beBytes 32 t.1 ++ beBytes 32 t.2.1, UInt8.ofNat t.2.2)

theorem ecdsaSign_range {d e k : Nat} {t : Nat × Nat × Nat} (h : ecdsaSign d e k = some t) :
    0 < t.1 ∧ t.1 < secpN ∧ 0 < t.2.1 ∧ 2 * t.2.1 < secpN := by
  have hN : 0 < secpN := pm_order.pr.pos
  have hodd := pm_order.odd
  have hr : xNat (k • G) % secpN < secpN := Nat.mod_lt _ hN
  have hs := ZMod.val_lt (((e : Fn) + ((xNat (k • G) % secpN : Nat) : Fn) * (d : Fn)) / (k : Fn))
  unfold ecdsaSign at h
  simp only at h
  split at h
  · cases h
  rename_i h0
  split at h
  · obtain rfl := Option.some.inj h
    simp only
    omega
  · obtain rfl := Option.some.inj h
    simp only
    omega

theorem signLoop_spec {priv digest : Bytes} (hp : priv.length = 32) (hd : digest.length = 32) {rnd : Nat → BN × BN} (hr : Draws rnd) (n i : Nat) :
    signLoop (fun _ _ => true) priv (readBE digest) rnd n (Nat.repeat (fun s => (Rfc6979.generate s).2) i (Rfc6979.init priv digest))
      = .ok (((List.range' i n).findSome? fun i =>
          if 0 < beNat (drbgCandidate priv digest i) ∧ beNat (drbgCandidate priv digest i) < secpN then
            ecdsaSign (beNat priv) (beNat digest) (beNat (drbgCandidate priv digest i)) else none).map ecdsaBytes) := by
  induction n generalizing i with
  | zero => rfl
  | succ n ih =>
    have hg := C46_drbg priv digest hp hd i
    have ih := ih (i + 1)
    rw [show Nat.repeat (fun s => (Rfc6979.generate s).2) (i + 1) (Rfc6979.init priv digest)
      = (Rfc6979.generate (Nat.repeat (fun s => (Rfc6979.generate s).2) i (Rfc6979.init priv digest))).2 from rfl] at ih
    rw [List.range'_succ, List.findSome?_cons]
    unfold signLoop
    simp only
    rw [hg]
    have hkl : (drbgCandidate priv digest i).length = 32 := hmacSha256_length _ _
    obtain ⟨k1, k2⟩ := readBE_spec _ hkl
    have ek : beValue (drbgCandidate priv digest i) = beNat (drbgCandidate priv digest i) := rfl
    rw [ek] at k2
    generalize drbgCandidate priv digest i = kb at *
    by_cases hc : ((readBE kb).isZero || !isLess (readBE kb) Secp.order) = true
    · rw [if_pos hc, ih]
      rw [Bool.or_eq_true, Bool.not_eq_true', ← Bool.not_eq_true, isZero_iff, isLess_iff k1 modulus_order.normal, value_order, k2] at hc
      rw [if_neg (by omega)]
    rw [if_neg hc]
    rw [Bool.or_eq_true, Bool.not_eq_true', ← Bool.not_eq_true, isZero_iff, isLess_iff k1 modulus_order.normal, value_order, k2, not_or, not_not] at hc
    rw [if_pos (by omega)]
    obtain ⟨o, o1, o2⟩ := signRound_spec hp hd k1 (by omega) (by omega) (hr.blind n) (hr.normal n) (hr.pos n) (hr.lt n)
    rw [k2] at o2
    rw [o1, C.bind_ok]
    match o, o2 with
    | none, o2 =>
      rw [o2]
      exact ih
    | some (r, s, b), o2 =>
      obtain ⟨rn, sn, o2⟩ := o2
      rw [o2]
      obtain ⟨-, l1, -, l2⟩ := ecdsaSign_range o2
      have hN := secpN_lt
      simp only [if_true, Option.map_some, ecdsaBytes, C.pure_eq]
      rw [writeBE_eq rn (by simp only at l1; omega), writeBE_eq sn (by simp only at l2; omega), UInt8.ofNat_toNat]

theorem signDigest_spec {priv digest : Bytes} (hp : priv.length = 32) (hd : digest.length = 32) {rnd : Nat → BN × BN} (hr : Draws rnd) :
    signDigest (fun _ _ => true) priv digest rnd = .ok ((ecdsaDeterministic priv digest 10000).map ecdsaBytes) := by
  have := signLoop_spec hp hd hr 10000 0
  rw [← List.range_eq_range'] at this
  exact this

theorem findSome?_range {α : Type} {f : Nat → Option α} {n : Nat} {t : α} (h : (List.range n).findSome? f = some t) : ∃ i, f i = some t := by
  obtain ⟨i, -, h⟩ := List.exists_of_findSome?_eq_some h
  exact ⟨i, h⟩

theorem deterministic_some {priv digest : Bytes} {n : Nat} {t : Nat × Nat × Nat} (h : ecdsaDeterministic priv digest n = some t) :
    ∃ k, 0 < k ∧ k < secpN ∧ ecdsaSign (beNat priv) (beNat digest) k = some t := by
  obtain ⟨i, h⟩ := findSome?_range h
  simp only at h
  split at h
  · rename_i hk
    exact ⟨_, hk.1, hk.2, h⟩
  · cases h

/-- Signatures in the sense of SEC 1 are valid in the sense of SEC 1. -/
theorem ecdsaSign_valid {d e k : Nat} (hk0 : 0 < k) (hkl : k < secpN) {t : Nat × Nat × Nat} (h : ecdsaSign d e k = some t) :
    EcdsaValid (d • G) e t.1 t.2.1 := by
  have hrange := ecdsaSign_range h
  have hkF : (k : Fn) ≠ 0 := cast_ne hk0 hkl
  have hR0 : k • G ≠ 0 := smul_ne_zero_of hkF G_ne_zero
  unfold ecdsaSign at h
  simp only at h
  split at h
  · cases h
  rename_i h0
  set r := xNat (k • G) % secpN with hr
  set s := ((e : Fn) + (r : Fn) * d) / (k : Fn) with hs
  have hsne : s ≠ 0 := fun hc => h0 (Or.inr (by rw [hc, ZMod.val_zero]))
  have hnum : (e : Fn) + (r : Fn) * d = s * k := by rw [hs, div_mul_cancel₀ _ hkF]
  have point (σ : Fn) : ((e : Fn) / σ).val • G + ((r : Fn) / σ).val • (d • G) = (((e : Fn) + (r : Fn) * d) / σ).val • G := by
    rw [← smul_val d, smul_mul_val, smul_add_val]
    congr 2
    ring
  split at h
  · obtain rfl := Option.some.inj h
    refine ⟨hrange.1, hrange.2.1, hrange.2.2.1, by have := hrange.2.2.2; omega, _, rfl, ?_⟩
    simp only
    have hc : ((secpN - s.val : Nat) : Fn) = -s := by
      rw [Nat.cast_sub (ZMod.val_lt s).le, ZMod.natCast_self, zero_sub, ZMod.natCast_zmod_val]
    rw [hc, point, hnum, show s * (k : Fn) / -s = -(k : Fn) by field_simp, smul_neg_val, smul_val]
    exact ⟨neg_ne_zero.mpr hR0, by rw [xNat_neg]⟩
  · obtain rfl := Option.some.inj h
    refine ⟨hrange.1, hrange.2.1, hrange.2.2.1, by have := hrange.2.2.2; omega, _, rfl, ?_⟩
    simp only
    rw [ZMod.natCast_zmod_val, point, hnum, mul_div_cancel_left₀ _ hsne, smul_val]
    exact ⟨hR0, hr.symm⟩

end UB
