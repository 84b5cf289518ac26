import Verif.Props.ECKey

/-
C61 scalar arithmetic, C62 order of public keys, C64 point arithmetic.
-/

namespace UB
open Spec BN

attribute [local irreducible] secpP secpN BN.multiply BN.fastMod BN.mod BN.subtractmod BN.multK BN.addmod BN.inverse BN.lshift BN.subi BN.add
  BN.multHalf BN.cmov BN.isEqual BN.isZero BN.sqrt BN.subtract scalarMultiply pointMultiply CurvePoint.add readBE writeBE BN.addi

/-! ### C61 -/

namespace Scalar

/-- C61: the sum of any two scalars is the reduced sum modulo the group order. -/
theorem C61_add (a b : Bytes) (ha : a.length = 32) (hb : b.length = 32) :
    (add a b).length = 32 ∧ beNat (add a b) = (beNat a + beNat b) % secpN := by
  rw [add_spec ha hb]
  exact ⟨Spec.length_beBytes _ _, by rw [beNat_val, ← Nat.cast_add, ZMod.val_natCast]⟩

/-- C61: the product. -/
theorem C61_mul (a b : Bytes) (ha : a.length = 32) (hb : b.length = 32) :
    (mul a b).length = 32 ∧ beNat (mul a b) = beNat a * beNat b % secpN := by
  rw [mul_spec ha hb]
  exact ⟨Spec.length_beBytes _ _, by rw [beNat_val, ← Nat.cast_mul, ZMod.val_natCast]⟩

/-- C61: the difference of any scalar and a reduced one (or the order itself). -/
theorem C61_sub (a b : Bytes) (ha : a.length = 32) (hb : b.length = 32) (h : beNat b ≤ secpN) :
    (sub a b).length = 32 ∧ beNat (sub a b) = (beNat a + (secpN - beNat b)) % secpN := by
  rw [sub_spec ha hb h]
  refine ⟨Spec.length_beBytes _ _, ?_⟩
  have e : (beNat a : Fn) - (beNat b : Fn) = ((beNat a + (secpN - beNat b) : Nat) : Fn) := by
    rw [Nat.cast_add, Nat.cast_sub h, ZMod.natCast_self, zero_sub, sub_eq_add_neg]
  rw [beNat_val, e, ZMod.val_natCast]

/-- C61: the quotient by a scalar not divisible by the order is reduced, and times the divisor gives the dividend. -/
theorem C61_div (a b : Bytes) (ha : a.length = 32) (hb : b.length = 32) (h : ¬ secpN ∣ beNat b) :
    ∃ c, div a b = .ok c ∧ c.length = 32 ∧ beNat c < secpN ∧ beNat c * beNat b % secpN = beNat a % secpN := by
  have hne : (beNat b : Fn) ≠ 0 := fun e => h ((ZMod.natCast_eq_zero_iff _ _).mp e)
  refine ⟨_, div_spec ha hb hne, Spec.length_beBytes _ _, ?_, ?_⟩
  · rw [beNat_val]; exact ZMod.val_lt _
  · have e : (((((beNat a : Fn) / (beNat b : Fn)).val * beNat b : Nat)) : Fn) = ((beNat a : Nat) : Fn) := by
      rw [Nat.cast_mul, ZMod.natCast_zmod_val, div_mul_cancel₀ _ hne]
    rw [beNat_val, ← ZMod.val_natCast, ← ZMod.val_natCast, e]

/-- C61, code and claim disagree: dividing by zero reads outside an array (see `C49_zero_out_of_bounds`). -/
theorem C61_div_zero (a b : Bytes) (hb : b.length = 32) (h : secpN ∣ beNat b) : div a b = .ub := by
  obtain ⟨p1, p2⟩ := readBE_key hb
  unfold div
  rw [C49_zero_out_of_bounds (readBE b) Secp.order p1.len modulus_order (by rw [value_order]; unfold secpN; decide +kernel)
    (by rw [value_order, p2]; exact h)]
  rfl

/-- C61: the negative of a nonzero reduced scalar.  Missing for the full claim: zero, whose negative is not reduced (`C61_neg_zero`). -/
theorem C61_neg_partial (a : Bytes) (ha : a.length = 32) (h : beNat a ≤ secpN) (h0 : 0 < beNat a) :
    (neg a).length = 32 ∧ beNat (neg a) < secpN ∧ (beNat a + beNat (neg a)) % secpN = 0 := by
  rw [neg_spec ha h, beNat_beBytes32 ((Nat.sub_le _ _).trans_lt secpN_lt)]
  refine ⟨Spec.length_beBytes _ _, by omega, ?_⟩
  rw [Nat.add_sub_of_le h, Nat.mod_self]

/-- C61, code and claim disagree: the negative of zero is the order itself, which is not reduced (and which no multiplication accepts,
`C64_mul_large_undefined`). -/
theorem C61_neg_zero : beNat (neg (zeros 32)) = secpN := by
  have hz : beNat (zeros 32) = 0 := by decide +kernel
  rw [neg_spec (by simp [zeros]) (by rw [hz]; exact Nat.zero_le _), hz, Nat.sub_zero, beNat_beBytes32 secpN_lt]

/-- C61: adding a machine word below 2^31. -/
theorem C61_addi (a : Bytes) (i : UInt32) (ha : a.length = 32) (hi : i.toNat < 2 ^ 31) :
    (addi a i).length = 32 ∧ beNat (addi a i) = (beNat a + i.toNat) % secpN := by
  rw [addi_spec ha i hi]
  exact ⟨Spec.length_beBytes _ _, by rw [beNat_val, ← Nat.cast_add, ZMod.val_natCast]⟩

/-- C61, code and claim disagree: for larger words `bn_addi` can lose a carry; 1 + (2^32 - 1) is computed as 0. -/
theorem C61_addi_wraps : beNat (addi (zeros 31 ++ [1]) 0xFFFFFFFF) = 0 := by decide +kernel

/-- C61: subtracting a machine word not above 0x10364141, the lowest limb of the order, from a reduced scalar. -/
theorem C61_subi (a : Bytes) (i : UInt32) (ha : a.length = 32) (hl : beNat a < secpN) (hi : i.toNat ≤ 0x10364141) :
    (subi a i).length = 32 ∧ beNat (subi a i) = (beNat a + (secpN - i.toNat)) % secpN := by
  rw [subi_spec ha hl i hi]
  refine ⟨Spec.length_beBytes _ _, ?_⟩
  have hN' : 0x10364141 < secpN := by unfold secpN; decide +kernel
  have e : (beNat a : Fn) - (i.toNat : Fn) = ((beNat a + (secpN - i.toNat) : Nat) : Fn) := by
    rw [Nat.cast_add, Nat.cast_sub (by omega), ZMod.natCast_self, zero_sub, sub_eq_add_neg]
  rw [beNat_val, e, ZMod.val_natCast]

/-- C61, code and claim disagree: for larger words `bn_subi` underflows; 1 - 0x10364143 is off by 2^32. -/
theorem C61_subi_wraps : beNat (subi (zeros 31 ++ [1]) 0x10364143) = 1 + 2 ^ 32 - 0x10364143 := by decide +kernel

/-- C61, code and claim disagree: the constructor from a machine word shifts a 64 bit number by up to 248 places, which is undefined,
for every number. -/
theorem C61_word_constructor_undefined (i : UInt32) : ofUInt32 i = .ub := rfl

/-- C61: the comparison is that of the numbers. -/
theorem C61_lt (a b : Bytes) (ha : a.length = 32) (hb : b.length = 32) : lt a b = decide (beNat a < beNat b) := lt_spec ha hb

example : ∃ a b : Bytes, a.length = 32 ∧ b.length = 32 ∧ beNat a < secpN ∧ ¬ secpN ∣ beNat b ∧ 0 < beNat a ∧ beNat b ≤ secpN ∧ secpN ≤ beNat a + beNat b := by
  refine ⟨List.replicate 32 0x80, List.replicate 32 0x7f, by decide +kernel, by decide +kernel, ?_, ?_, by decide +kernel, ?_, ?_⟩ <;>
    unfold secpN <;> decide +kernel

end Scalar

/-! ### C62 -/

namespace ECPoint

theorem memGt_iff : ∀ a b : Bytes, a.length = b.length → (memGt a b = true ↔ b < a)
  | [], [], _ => by simp [memGt]
  | [], _ :: _, h => by simp at h
  | _ :: _, [], h => by simp at h
  | a :: as, b :: bs, h => by
    have ih := memGt_iff as bs (by simpa using h)
    rw [memGt, List.cons_lt_cons_iff]
    split_ifs with hab
    · subst hab
      rw [ih]
      exact ⟨fun h => .inr ⟨rfl, h⟩, fun h => h.elim (fun h => absurd h (by simp)) And.right⟩
    · rw [decide_eq_true_iff]
      exact ⟨.inl, fun h => h.elim id fun h => absurd h.1.symm hab⟩

theorem lt_append_same : ∀ (a b t : Bytes), a.length = b.length → (a ++ t < b ++ t ↔ a < b)
  | [], [], t, _ => by simp
  | [], _ :: _, _, h => by simp at h
  | _ :: _, [], _, h => by simp at h
  | a :: as, b :: bs, t, h => by
    rw [List.cons_append, List.cons_append, List.cons_lt_cons_iff, List.cons_lt_cons_iff, lt_append_same as bs t (by simpa using h)]

/-- C62: `p < q` holds exactly if the serialization of `q` comes *before* that of `p` in lexicographic order (shorter and longer
serializations never share the first byte): the order is the reverse of the one used for sorted multisig. -/
theorem C62_order (p q : ECPoint) (P Q : Pt) (hp : p.Holds P) (hq : q.Holds Q) :
    p.lt q = .ok (decide (secOf q.compressed Q < secOf p.compressed P)) := by
  unfold lt
  rw [sec65 p hp.length, sec65 q hq.length, bytes_spec hp, bytes_spec hq]
  simp only [C.bind_ok, C.pure_eq, C.ok.injEq]
  have hlp := length_secOf p.compressed P
  have hlq := length_secOf q.compressed Q
  rw [Bool.eq_iff_iff, memGt_iff _ _ (by
    simp only [List.length_append, hlp, hlq, length, zeros, List.length_replicate]
    split_ifs <;> rfl), decide_eq_true_iff]
  by_cases hc : p.compressed = q.compressed
  · have : q.length = p.length := by rw [length, length, hc]
    rw [this, lt_append_same _ _ _ (by rw [hlp, hlq, hc])]
  · obtain ⟨f, t, e, hf, hcf⟩ := secOf_head p.compressed P
    obtain ⟨g, u, e', hg, hcg⟩ := secOf_head q.compressed Q
    have hne : f ≠ g := by
      rintro rfl
      exact hc (hcf.trans hcg.symm)
    rw [e, e', List.cons_append, List.cons_append, List.cons_lt_cons_iff, List.cons_lt_cons_iff]
    have hne' : ¬ g = f := fun h => hne h.symm
    simp only [hne', false_and, or_false]

theorem secOf_inj {c c' : Bool} {P Q : Pt} (hP : P ≠ 0) (hQ : Q ≠ 0) (h : secOf c P = secOf c' Q) : c = c' ∧ P = Q := by
  obtain ⟨f, t, e, hf, hc⟩ := secOf_head c P
  obtain ⟨g, u, e', hg, hc'⟩ := secOf_head c' Q
  rw [e, e'] at h
  obtain ⟨rfl, rfl⟩ := List.cons.inj h
  have hcc : c = c' := hc.trans hc'.symm
  refine ⟨hcc, ?_⟩
  subst hcc
  obtain ⟨p1, e1, h1⟩ := readPubkey_complete (isSec_secOf (c := c) hP) [] CurvePoint.infinity
  obtain ⟨p2, e2, h2⟩ := readPubkey_complete (isSec_secOf (c := c) hQ) [] CurvePoint.infinity
  rw [e] at e1
  rw [e', e1] at e2
  simp only [C.ok.injEq, Prod.mk.injEq, true_and] at e2
  subst e2
  obtain ⟨a1, a2⟩ := isPoint_xNat h1
  obtain ⟨b1, b2⟩ := isPoint_xNat h2
  exact eq_of_coords hP hQ (a1.symm.trans b1) (a2.symm.trans b2)

/-- C62: the comparison is a strict total order on keys (point and compression flag): irreflexive … -/
theorem C62_irreflexive (p : ECPoint) (P : Pt) (hp : p.Holds P) : p.lt p = .ok false := by
  rw [C62_order p p P P hp hp]
  simp

/-- … transitive … -/
theorem C62_transitive (p q r : ECPoint) (P Q R : Pt) (hp : p.Holds P) (hq : q.Holds Q) (hr : r.Holds R) (h1 : p.lt q = .ok true)
    (h2 : q.lt r = .ok true) : p.lt r = .ok true := by
  rw [C62_order p q P Q hp hq] at h1
  rw [C62_order q r Q R hq hr] at h2
  rw [C62_order p r P R hp hr]
  simp only [C.ok.injEq, decide_eq_true_eq] at *
  exact List.lt_trans h2 h1

/-- … and total. -/
theorem C62_total (p q : ECPoint) (P Q : Pt) (hp : p.Holds P) (hq : q.Holds Q) (hP : P ≠ 0) (hQ : Q ≠ 0) :
    p.lt q = .ok true ∨ q.lt p = .ok true ∨ (P = Q ∧ p.compressed = q.compressed) := by
  rw [C62_order p q P Q hp hq, C62_order q p Q P hq hp]
  simp only [C.ok.injEq, decide_eq_true_eq]
  by_cases h1 : secOf q.compressed Q < secOf p.compressed P
  · exact .inl h1
  · by_cases h2 : secOf p.compressed P < secOf q.compressed Q
    · exact .inr (.inl h2)
    · obtain ⟨hc, h⟩ := secOf_inj hP hQ (List.le_antisymm (List.not_lt.mp h1) (List.not_lt.mp h2))
      exact .inr (.inr ⟨h, hc⟩)

/-- C62: `p == q` means that the points are equal. -/
theorem C62_equal (p q : ECPoint) (P Q : Pt) (hp : p.Holds P) (hq : q.Holds Q) : p.eq q = true ↔ P = Q := eq_iff hp hq

/-- C62, code and claim disagree: equality ignores the compression flag and the order does not, so two keys can be equal and one of
them less than the other: `p == q && p < q`. -/
theorem C62_equal_and_less (p q : ECPoint) (P : Pt) (hp : p.Holds P) (hq : q.Holds P) (hc : p.compressed = false) (hc' : q.compressed = true) :
    p.eq q = true ∧ p.lt q = .ok true := by
  refine ⟨(eq_iff hp hq).mpr rfl, ?_⟩
  rw [C62_order p q P P hp hq, hc, hc']
  simp only [C.ok.injEq, decide_eq_true_eq]
  unfold secOf secBytes
  rw [if_pos rfl, if_neg Bool.false_ne_true, List.cons_lt_cons_iff]
  left
  split_ifs <;> decide

example : ∃ (p q : ECPoint), p.Holds G ∧ q.Holds (-G) ∧ G ≠ 0 ∧ p.compressed = true ∧ q.compressed = false :=
  ⟨generator, { point := rawPoint (-G), compressed := false }, holds_generator, rfl, G_ne_zero, rfl, rfl⟩

/-! ### C64 -/

/-- C64: `+` is the addition of the curve. -/
theorem C64_add (p q : ECPoint) (P Q : Pt) (hp : p.Holds P) (hq : q.Holds Q) : ∃ r, p.add q = .ok r ∧ r.Holds (P + Q) := by
  obtain ⟨r, h1, h2, -⟩ := add_holds hp hq
  exact ⟨r, h1, h2⟩

/-- C64: unary `-`; the compression flag stays. -/
theorem C64_neg (p : ECPoint) (P : Pt) (junk : Bytes) (hp : p.Holds P) : ∃ r, p.neg junk = .ok r ∧ r.Holds (-P) ∧ r.compressed = p.compressed :=
  neg_holds junk hp

/-- C64: binary `-`. -/
theorem C64_sub (p q : ECPoint) (P Q : Pt) (junk : Bytes) (hp : p.Holds P) (hq : q.Holds Q) : ∃ r, p.sub junk q = .ok r ∧ r.Holds (P - Q) :=
  sub_holds junk hp hq

/-- C64: `scalar * point` for a reduced scalar (also zero) and a point that is not the point at infinity. -/
theorem C64_mul (p : ECPoint) (P : Pt) (num : Bytes) (z : BN) (hp : p.Holds P) (h0 : P ≠ 0) (hl : num.length = 32) (hlt : beNat num < secpN)
    (hz : Blind z) : ∃ r, ECPoint.mul num p z = .ok r ∧ r.Holds (beNat num • P) ∧ r.compressed = p.compressed :=
  mul_holds hl hlt hp h0 hz

/-- C64: unreduced scalars end in a failed assertion. -/
theorem C64_mul_large_undefined (p : ECPoint) (num : Bytes) (z : BN) (hp : p.point.length = 64) (hl : num.length = 32) (hge : secpN ≤ beNat num) :
    ECPoint.mul num p z = .ub := mul_large hl hge hp z

/-- C64, code and claim disagree: multiplying the point at infinity, which `+` and `-` handle, is undefined (the final conversion inverts 0). -/
theorem C64_mul_infinity_undefined (p : ECPoint) (num : Bytes) (z : BN) (hp : p.Holds 0) (hl : num.length = 32) (hlt : beNat num < secpN)
    (hne : beNat num ≠ 0) (hz : Blind z) : ECPoint.mul num p z = .ub := mul_infinity hl hlt hne hp hz

/-- C64: multiplication distributes over addition of points: d(p + q) = dp + dq. -/
theorem C64_distributes (p q : ECPoint) (P Q : Pt) (num : Bytes) (z1 z2 z3 : BN) (hp : p.Holds P) (hq : q.Holds Q) (hP : P ≠ 0) (hQ : Q ≠ 0)
    (hne : P + Q ≠ 0) (hl : num.length = 32) (hlt : beNat num < secpN) (h1 : Blind z1) (h2 : Blind z2) (h3 : Blind z3) :
    ∃ s l a b r, p.add q = .ok s ∧ ECPoint.mul num s z1 = .ok l ∧ ECPoint.mul num p z2 = .ok a ∧ ECPoint.mul num q z3 = .ok b ∧
      a.add b = .ok r ∧ l.eq r = true := by
  obtain ⟨s, s1, s2, -⟩ := add_holds hp hq
  obtain ⟨l, l1, l2, -⟩ := mul_holds hl hlt s2 hne h1
  obtain ⟨a, a1, a2, -⟩ := mul_holds hl hlt hp hP h2
  obtain ⟨b, b1, b2, -⟩ := mul_holds hl hlt hq hQ h3
  obtain ⟨r, r1, r2, -⟩ := add_holds a2 b2
  exact ⟨s, l, a, b, r, s1, l1, a1, b1, r1, (eq_iff l2 r2).mpr (nsmul_add _ _ _)⟩

example : ∃ (p q : ECPoint) (P Q : Pt) (z : BN), p.Holds P ∧ q.Holds Q ∧ P ≠ 0 ∧ Q ≠ 0 ∧ P + Q ≠ 0 ∧ Blind z := by
  refine ⟨generator, { point := rawPoint ((2 : Nat) • G), compressed := false }, G, (2 : Nat) • G, _, holds_generator, rfl, G_ne_zero, ?_, ?_, blind_one⟩
  · exact smul_ne_zero_of (cast_ne (by norm_num) (by unfold secpN; decide +kernel)) G_ne_zero
  · have : G + (2 : Nat) • G = (3 : Nat) • G := (succ_nsmul' G 2).symm
    rw [this]
    exact smul_ne_zero_of (cast_ne (by norm_num) (by unfold secpN; decide +kernel)) G_ne_zero

end ECPoint
end UB
