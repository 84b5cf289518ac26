import Verif.Lemmas.ECKey
import Verif.Lemmas.CurveInfinity

namespace UB
open Spec BN

attribute [local irreducible] secpP secpN BN.multiply BN.fastMod BN.mod BN.subtractmod BN.multK BN.addmod BN.inverse BN.lshift BN.subi BN.add
  BN.multHalf BN.cmov BN.isEqual BN.isZero BN.sqrt BN.subtract scalarMultiply pointMultiply CurvePoint.add readBE writeBE

theorem rawPoint_G : rawPoint G = ECPoint.generator.point := by
  have hx : xNat G = secpGx := by rw [xNat_at at_G, ZMod.val_natCast_of_lt (by unfold secpP; decide +kernel)]
  have hy : yNat G = secpGy := by rw [yNat_at at_G, ZMod.val_natCast_of_lt (by unfold secpP; decide +kernel)]
  rw [rawPoint, hx, hy]
  decide +kernel

theorem writePoint {r : CurvePoint} {P : Pt} (h : IsPoint r.x r.y P) : writeBE r.x ++ writeBE r.y = rawPoint P := by
  have := pointBytes_spec h
  unfold pointBytes secBytes at this
  simp only [Bool.false_eq_true, if_false] at this
  exact (List.cons.inj this).2

theorem readRaw (P : Pt) : load (rawPoint P) 0 32 = .ok (beBytes 32 (xNat P)) ∧ load (rawPoint P) 32 32 = .ok (beBytes 32 (yNat P)) :=
  ⟨load_lo (by rw [Spec.length_beBytes]), load_hi (by rw [Spec.length_beBytes]) (by rw [Spec.length_beBytes])⟩

/-- The coordinates in an object, as numbers, are the point. -/
theorem isPoint_raw (P : Pt) : IsPoint (readBE (beBytes 32 (xNat P))) (readBE (beBytes 32 (yNat P))) P := by
  obtain ⟨a1, a2⟩ := readBE_beBytes ((xNat_lt P).trans secpP_lt)
  obtain ⟨b1, b2⟩ := readBE_beBytes ((yNat_lt P).trans secpP_lt)
  refine ⟨a1, b1, by rw [a2]; exact xNat_lt P, by rw [b2]; exact yNat_lt P, ?_⟩
  rw [a2, b2]
  by_cases h : P = 0
  · subst h
    exact .inl ⟨rfl, rfl, rfl⟩
  · right
    obtain ⟨x, y, hat⟩ := exists_at h
    rw [xNat_at hat, yNat_at hat, ZMod.natCast_zmod_val, ZMod.natCast_zmod_val]
    exact hat

theorem secOf_neg {P : Pt} (h : P ≠ 0) : secOf true (-P) = (if yNat P % 2 = 0 then 0x03 else 0x02) :: beBytes 32 (xNat P) := by
  have hy := yNat_neg h
  have hlt := yNat_lt P
  have hodd : secpP % 2 = 1 := by unfold secpP; decide +kernel
  have h2 : yNat (-P) % 2 = 1 - yNat P % 2 := by omega
  unfold secOf secBytes
  rw [if_pos rfl, xNat_neg, h2]
  have := Nat.mod_two_eq_zero_or_one (yNat P)
  rcases this with h | h <;> rw [h] <;> simp

namespace ECPoint

theorem eq_empty {p : ECPoint} {P : Pt} (h : p.Holds P) : p.eq {} = true ↔ P = 0 := by
  unfold eq
  rw [h, beq_iff_eq, ← rawPoint_zero]
  exact ⟨fun h => rawPoint_inj h, fun h => by rw [h]⟩

theorem eq_iff {p q : ECPoint} {P Q : Pt} (hp : p.Holds P) (hq : q.Holds Q) : p.eq q = true ↔ P = Q := by
  unfold eq
  rw [hp, hq, beq_iff_eq]
  exact ⟨fun h => rawPoint_inj h, fun h => by rw [h]⟩

theorem holds_generator : generator.Holds G := rawPoint_G.symm

theorem fromSec_secOf {p : ECPoint} (junk : Bytes) (c : Bool) {P : Pt} (rest : Bytes) (hs : p.status = .done) (hp : p.point.length = 64) (h0 : P ≠ 0) :
    ∃ p', fromSec junk p (secOf c P ++ rest) = (p', if c then 33 else 65) ∧ p'.Has c P := by
  obtain ⟨p', e, h⟩ := read_all junk 0 c rest hs hp h0
  refine ⟨p', ?_, h⟩
  unfold fromSec
  rw [e]

/-- `operator+`. -/
theorem add_holds {p q : ECPoint} {P Q : Pt} (hp : p.Holds P) (hq : q.Holds Q) :
    ∃ r, p.add q = .ok r ∧ r.Holds (P + Q) ∧ (P ≠ 0 → Q ≠ 0 → r = { point := rawPoint (P + Q) }) := by
  unfold add
  by_cases h0 : P = 0
  · rw [if_pos ((eq_empty hp).mpr h0)]
    exact ⟨q, rfl, by rw [h0, zero_add]; exact hq, fun h => absurd h0 h⟩
  rw [if_neg (fun e => h0 ((eq_empty hp).mp e))]
  by_cases h1 : Q = 0
  · rw [if_pos ((eq_empty hq).mpr h1)]
    exact ⟨p, rfl, by rw [h1, add_zero]; exact hp, fun _ h => absurd h1 h⟩
  rw [if_neg (fun e => h1 ((eq_empty hq).mp e))]
  obtain ⟨a, a1, a2⟩ := readPubkey_complete (isSec_secOf (c := p.compressed) h0) (zeros (65 - p.length)) CurvePoint.infinity
  obtain ⟨b, b1, b2⟩ := readPubkey_complete (isSec_secOf (c := q.compressed) h1) (zeros (65 - q.length)) CurvePoint.infinity
  obtain ⟨e, e1, e2⟩ := point_add_spec a2 b2
  rw [sec65 p hp.length, sec65 q hq.length, bytes_spec hp, bytes_spec hq]
  simp only [C.bind_ok, a1, b1, e1, C.pure_eq, writePoint e2]
  exact ⟨_, rfl, rfl, fun _ _ => rfl⟩

theorem isEven_holds {p : ECPoint} {P : Pt} (h : p.Holds P) : p.isEven = .ok (yNat P % 2 == 0) := by
  unfold isEven
  have he : entry p.point 63 = .ok (p.point.getD 63 0) := by
    unfold entry
    rw [List.getD_eq_getElem?_getD, List.getElem?_eq_getElem (by rw [h.length]; omega)]
    rfl
  rw [he, h, C.bind_ok, C.pure_eq, (parity_last P).1]

/-- `operator-()`. -/
theorem neg_holds {p : ECPoint} {P : Pt} (junk : Bytes) (hp : p.Holds P) :
    ∃ r, p.neg junk = .ok r ∧ r.Holds (-P) ∧ r.compressed = p.compressed := by
  unfold neg
  by_cases h0 : P = 0
  · rw [if_pos ((eq_empty hp).mpr h0)]
    exact ⟨p, rfl, by rw [h0, neg_zero, ← h0]; exact hp, rfl⟩
  rw [if_neg (fun e => h0 ((eq_empty hp).mp e)), hp, (readRaw P).1, isEven_holds hp]
  simp only [C.bind_ok]
  obtain ⟨r, r1, r2⟩ := fromSec_secOf (p := {}) junk true (P := -P) [] rfl (by simp [zeros]) (neg_ne_zero.mpr h0)
  rw [List.append_nil, secOf_neg h0] at r1
  have e : (if (yNat P % 2 == 0) = true then (0x03 : UInt8) else 0x02) = if yNat P % 2 = 0 then 0x03 else 0x02 := by
    simp only [beq_iff_eq]
  rw [e, r1]
  simp only [r2.status, reduceCtorEq, if_false, C.pure_eq]
  exact ⟨_, rfl, r2.point, rfl⟩

theorem sub_holds {p q : ECPoint} {P Q : Pt} (junk : Bytes) (hp : p.Holds P) (hq : q.Holds Q) :
    ∃ r, p.sub junk q = .ok r ∧ r.Holds (P - Q) := by
  obtain ⟨a, a1, a2, -⟩ := neg_holds junk hq
  obtain ⟨r, r1, r2, -⟩ := add_holds hp a2
  refine ⟨r, ?_, by rw [sub_eq_add_neg]; exact r2⟩
  unfold sub
  rw [a1, C.bind_ok, r1]

/-- Parsing 04 and 64 zero bytes fails and leaves zeros. -/
theorem fromSec_zero : ∃ r, fromSec [] {} (secOf false 0) = (r, 65) ∧ r.status = .failed ∧ r.point = zeros 64 := by
  have e : secOf false 0 = 0x04 :: zeros 64 := by
    rw [← rawPoint_zero]; rfl
  have : fromSec [] {} (0x04 :: zeros 64) = (⟨.failed, 65, zeros 64, false⟩, 65) := by decide +kernel
  rw [e, this]
  exact ⟨_, rfl, rfl, rfl⟩

/-- `operator*`. -/
theorem mul_holds {p : ECPoint} {P : Pt} {num : Bytes} (hl : num.length = 32) (hlt : beNat num < secpN) (hp : p.Holds P) (h0 : P ≠ 0)
    {z : BN} (hz : Blind z) : ∃ r, ECPoint.mul num p z = .ok r ∧ r.Holds (beNat num • P) ∧ r.compressed = p.compressed := by
  unfold ECPoint.mul
  by_cases hg : P = G
  · rw [if_pos ((eq_iff hp holds_generator).mpr hg), getPublicKey65_spec hl hlt hz]
    simp only [C.bind_ok]
    by_cases hk : beNat num • G = 0
    · obtain ⟨r, r1, r2, r3⟩ := fromSec_zero
      rw [hk]
      rw [secOf] at r1
      rw [r1]
      simp only [r2, reduceCtorEq, if_false, C.pure_eq]
      refine ⟨_, rfl, ?_, rfl⟩
      rw [hg, hk]
      exact r3.trans rawPoint_zero.symm
    · obtain ⟨r, r1, r2⟩ := fromSec_secOf (p := {}) [] false [] rfl (by simp [zeros]) hk
      rw [List.append_nil, secOf] at r1
      rw [r1]
      simp only [r2.status, reduceCtorEq, if_false, C.pure_eq]
      refine ⟨_, rfl, ?_, rfl⟩
      rw [hg]
      exact r2.point
  · rw [if_neg (fun e => hg ((eq_iff hp holds_generator).mp e)), hp, (readRaw P).1, (readRaw P).2]
    simp only [C.bind_ok]
    obtain ⟨p1, p2⟩ := readBE_key hl
    obtain ⟨r, r1, r2⟩ := pointMultiply_spec _ p1 (by rw [p2]; exact hlt) (p := ⟨_, _⟩) (isPoint_raw P) h0 z hz.normal hz.pos hz.lt
    rw [r1, C.bind_ok, C.pure_eq, writePoint r2, p2]
    exact ⟨_, rfl, rfl, rfl⟩

/-- Scalars that are not below the order end in a failed assertion. -/
theorem mul_large {p : ECPoint} {num : Bytes} (hl : num.length = 32) (hge : secpN ≤ beNat num) (hp : p.point.length = 64) (z : BN) :
    ECPoint.mul num p z = .ub := by
  obtain ⟨p1, p2⟩ := readBE_key hl
  unfold ECPoint.mul
  split_ifs
  · rw [getPublicKey65, scalarMultiply_large p1 (by rw [p2]; exact hge)]
    rfl
  · have l1 : load p.point 0 32 = .ok (p.point.take 32) := by unfold load; rw [if_pos (by omega), List.drop_zero]
    have l2 : load p.point 32 32 = .ok ((p.point.drop 32).take 32) := by unfold load; rw [if_pos (by omega)]
    rw [l1, l2]
    simp only [C.bind_ok, pointMultiply_large p1 (by rw [p2]; exact hge)]
    rfl

/-- Multiplying the point at infinity ends in undefined behaviour. -/
theorem mul_infinity {p : ECPoint} {num : Bytes} (hl : num.length = 32) (hlt : beNat num < secpN) (hne : beNat num ≠ 0) (hp : p.Holds 0)
    {z : BN} (hz : Blind z) : ECPoint.mul num p z = .ub := by
  obtain ⟨p1, p2⟩ := readBE_key hl
  unfold ECPoint.mul
  rw [if_neg (fun e => G_ne_zero ((eq_iff hp holds_generator).mp e).symm), hp, (readRaw 0).1, (readRaw 0).2]
  have hx : xNat 0 = 0 := rfl
  have hy : yNat 0 = 0 := rfl
  have hz0 : readBE (beBytes 32 0) = BN.zero := by
    have := readBE_beBytes (n := 0) (by norm_num)
    exact Spec.Normal.inj this.1 ⟨rfl, by decide⟩ (by rw [this.2]; rfl)
  rw [hx, hy]
  simp only [C.bind_ok, hz0]
  rw [show (⟨BN.zero, BN.zero⟩ : CurvePoint) = CurvePoint.infinity from rfl,
    pointMultiply_infinity _ p1 (by rw [p2]; exact hlt) (by rw [p2]; exact hne) z hz.normal hz.lt]
  rfl

end ECPoint

theorem pubOf_spec {num : Bytes} (hl : num.length = 32) (hlt : beNat num < secpN) {z : BN} (hz : Blind z) :
    pubOf num z = .ok { point := rawPoint (beNat num • G) } := by
  obtain ⟨r, r1, r2, r3⟩ := ECPoint.mul_holds hl hlt ECPoint.holds_generator G_ne_zero hz
  unfold pubOf
  rw [r1, C.bind_ok, C.pure_eq, ECPoint.toPublic, r2, r3]
  rfl

theorem pubOf_large {num : Bytes} (hl : num.length = 32) (hge : secpN ≤ beNat num) (z : BN) : pubOf num z = .ub := by
  unfold pubOf
  rw [ECPoint.mul_large hl hge rfl]
  rfl

end UB
