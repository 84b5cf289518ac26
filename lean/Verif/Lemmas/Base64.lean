import Verif.Model.Conversion
import Verif.Spec.Base64
import Verif.Lemmas.Bytes
import Verif.Lemmas.Bin
import Verif.Lemmas.Ints

namespace UB
open Spec

/-- One encoded character. -/
def b64ch (url : Bool) (s : Nat) : UInt8 := (base64Alphabet url).getD s 0

theorem b64ch_false (s : Nat) : b64ch false s = base64Chars.getD s 0 := by
  have : base64Alphabet false = base64Chars := by decide +kernel
  rw [b64ch, this]

theorem b64ch_true (s : Nat) (hs : s < 64) : b64ch true s = urlSafeChar (base64Chars.getD s 0) := by
  have : ∀ s < 64, b64ch true s = urlSafeChar (base64Chars.getD s 0) := by decide +kernel
  exact this s hs

/-- Text of one three-byte group. -/
def quad (url : Bool) (a b c : UInt8) : Bytes :=
  [b64ch url (a.toNat / 4), b64ch url (a.toNat % 4 * 16 + b.toNat / 16),
   b64ch url (b.toNat % 16 * 4 + c.toNat / 64), b64ch url (c.toNat % 64)]

theorem bits_hi6 (a : UInt8) : bitsValue ((bits8 a).take 6) = a.toNat / 4 := by
  revert a; apply forall_byte; decide +kernel
theorem bits_lo2 (a : UInt8) : bitsValue ((bits8 a).drop 6) = a.toNat % 4 := by
  revert a; apply forall_byte; decide +kernel
theorem bits_hi4 (a : UInt8) : bitsValue ((bits8 a).take 4) = a.toNat / 16 := by
  revert a; apply forall_byte; decide +kernel
theorem bits_lo4 (a : UInt8) : bitsValue ((bits8 a).drop 4) = a.toNat % 16 := by
  revert a; apply forall_byte; decide +kernel
theorem bits_hi2 (a : UInt8) : bitsValue ((bits8 a).take 2) = a.toNat / 64 := by
  revert a; apply forall_byte; decide +kernel
theorem bits_lo6 (a : UInt8) : bitsValue ((bits8 a).drop 2) = a.toNat % 64 := by
  revert a; apply forall_byte; decide +kernel

theorem sextets_three (a b c : UInt8) (rest : List Bool) :
    sextets (bits8 a ++ (bits8 b ++ (bits8 c ++ rest))) =
      a.toNat / 4 :: (a.toNat % 4 * 16 + b.toNat / 16) :: (b.toNat % 16 * 4 + c.toNat / 64) ::
        c.toNat % 64 :: sextets rest := by
  rw [← bits_hi6, ← bits_lo2, ← bits_hi4, ← bits_lo4, ← bits_hi2, ← bits_lo6]
  have h1 := bitsValue_append ((bits8 a).drop 6) ((bits8 b).take 4)
  have h2 := bitsValue_append ((bits8 b).drop 4) ((bits8 c).take 2)
  have l1 : ((bits8 b).take 4).length = 4 := rfl
  have l2 : ((bits8 c).take 2).length = 2 := rfl
  rw [l1] at h1; rw [l2] at h2
  have e1 : (2 : Nat) ^ 4 = 16 := rfl
  have e2 : (2 : Nat) ^ 2 = 4 := rfl
  rw [e1] at h1; rw [e2] at h2
  rw [← h1, ← h2]
  simp [bits8, sextets]

theorem sextets_two (a b : UInt8) :
    sextets (bits8 a ++ (bits8 b ++ [])) =
      [a.toNat / 4, a.toNat % 4 * 16 + b.toNat / 16, b.toNat % 16 * 4] := by
  rw [← bits_hi6, ← bits_lo2, ← bits_hi4, ← bits_lo4]
  have h1 := bitsValue_append ((bits8 a).drop 6) ((bits8 b).take 4)
  have h2 := bitsValue_append ((bits8 b).drop 4) [false, false]
  have l1 : ((bits8 b).take 4).length = 4 := rfl
  have z : bitsValue [false, false] = 0 := rfl
  rw [l1] at h1; rw [z, Nat.add_zero] at h2
  have e1 : (2 : Nat) ^ 4 = 16 := rfl
  have e2 : (2 : Nat) ^ ([false, false] : List Bool).length = 4 := rfl
  rw [e1] at h1; rw [e2] at h2
  rw [← h1, ← h2]
  simp [bits8, sextets]

theorem sextets_one (a : UInt8) :
    sextets (bits8 a ++ []) = [a.toNat / 4, a.toNat % 4 * 16] := by
  rw [← bits_hi6, ← bits_lo2]
  have h1 := bitsValue_append ((bits8 a).drop 6) [false, false, false, false]
  have z : bitsValue [false, false, false, false] = 0 := rfl
  rw [z, Nat.add_zero] at h1
  rw [show (16 : Nat) = 2 ^ ([false, false, false, false] : List Bool).length from rfl, ← h1]
  simp [bits8, sextets]

theorem base64Text_cons3 (p u : Bool) (a b c : UInt8) (rest : Bytes) :
    base64Text p u (a :: b :: c :: rest) = quad u a b c ++ base64Text p u rest := by
  unfold base64Text
  simp only [List.flatMap_cons, sextets_three]
  split
  · simp [quad, b64ch]
    congr 2
    omega
  · simp [quad, b64ch]

theorem base64Text_two (p u : Bool) (a b : UInt8) :
    base64Text p u [a, b] = [b64ch u (a.toNat / 4), b64ch u (a.toNat % 4 * 16 + b.toNat / 16),
      b64ch u (b.toNat % 16 * 4)] ++ (if p then [61] else []) := by
  unfold base64Text
  simp only [List.flatMap_cons, List.flatMap_nil, sextets_two]
  cases p <;> simp [b64ch]

theorem base64Text_one (p u : Bool) (a : UInt8) :
    base64Text p u [a] = [b64ch u (a.toNat / 4), b64ch u (a.toNat % 4 * 16)] ++ (if p then [61, 61] else []) := by
  unfold base64Text
  simp only [List.flatMap_cons, List.flatMap_nil, sextets_one]
  cases p <;> simp [b64ch]

theorem base64Text_nil (p u : Bool) : base64Text p u [] = [] := by
  cases p <;> simp [base64Text, sextets]

/-! Encoder -/

theorem b64Group_eq (v : UInt32) (k : Nat) (hk : k ≤ 4) : b64Group v k =
    ([v.toNat / 262144 % 64, v.toNat / 4096 % 64, v.toNat / 64 % 64, v.toNat % 64].take k).map (b64ch false) := by
  have hx : ∀ j : Nat, j < 32 → ((v >>> (UInt32.ofNat j)) &&& 0x3F).toNat = v.toNat / 2 ^ j % 64 := by
    intro j hj
    have h1 : (UInt32.ofNat j).toNat = j := by simp; omega
    rw [UInt32.toNat_and, UInt32.toNat_shiftRight, h1, Nat.mod_eq_of_lt hj, Nat.shiftRight_eq_div_pow]
    have h3 : (0x3F : UInt32).toNat = 2 ^ 6 - 1 := by decide
    rw [h3, Nat.and_two_pow_sub_one_eq_mod]
  unfold b64Group
  have hr : ∀ i, i < 4 → base64Chars.getD ((v >>> (UInt32.ofNat (6 * (3 - i)))) &&& 0x3F).toNat 0 =
      b64ch false (v.toNat / 2 ^ (6 * (3 - i)) % 64) := by
    intro i hi
    rw [hx _ (by omega), b64ch_false]
  have : k = 0 ∨ k = 1 ∨ k = 2 ∨ k = 3 ∨ k = 4 := by omega
  rcases this with rfl | rfl | rfl | rfl | rfl
  · rfl
  · simp only [List.range_succ, List.range_zero, List.nil_append, List.map_cons, List.map_nil, hr 0 (by omega)]; simp
  · simp only [List.range_succ, List.range_zero, List.nil_append, List.cons_append, List.map_cons, List.map_nil,
      hr 0 (by omega), hr 1 (by omega)]; simp
  · simp only [List.range_succ, List.range_zero, List.nil_append, List.cons_append, List.map_cons, List.map_nil,
      hr 0 (by omega), hr 1 (by omega), hr 2 (by omega)]; simp
  · simp only [List.range_succ, List.range_zero, List.nil_append, List.cons_append, List.map_cons, List.map_nil,
      hr 0 (by omega), hr 1 (by omega), hr 2 (by omega), hr 3 (by omega)]; simp

theorem be3 (a b c : UInt8) : (bigEndianToInt [a, b, c]).toUInt32.toNat = a.toNat * 65536 + b.toNat * 256 + c.toNat := by
  have ha := a.toNat_lt; have hb := b.toNat_lt; have hc := c.toNat_lt
  rw [UInt64.toNat_toUInt32, bigEndianToInt_eq]
  simp [beValue]; omega

theorem be2 (a b : UInt8) : ((bigEndianToInt [a, b]).toUInt32 <<< 8).toNat = a.toNat * 65536 + b.toNat * 256 := by
  have ha := a.toNat_lt; have hb := b.toNat_lt
  rw [UInt32.toNat_shiftLeft, UInt64.toNat_toUInt32, bigEndianToInt_eq]
  simp [beValue, Nat.shiftLeft_eq]; omega

theorem be1 (a : UInt8) : ((bigEndianToInt [a]).toUInt32 <<< 16).toNat = a.toNat * 65536 := by
  have ha := a.toNat_lt
  rw [UInt32.toNat_shiftLeft, UInt64.toNat_toUInt32, bigEndianToInt_eq]
  simp [beValue, Nat.shiftLeft_eq]; omega

theorem group3 (a b c : UInt8) : b64Group (bigEndianToInt [a, b, c]).toUInt32 4 = quad false a b c := by
  have ha := a.toNat_lt; have hb := b.toNat_lt; have hc := c.toNat_lt
  rw [b64Group_eq _ _ (by omega), be3]
  simp only [List.take_succ_cons, List.take_zero, List.map_cons, List.map_nil, quad]
  have e1 : (a.toNat * 65536 + b.toNat * 256 + c.toNat) / 262144 % 64 = a.toNat / 4 := by omega
  have e2 : (a.toNat * 65536 + b.toNat * 256 + c.toNat) / 4096 % 64 = a.toNat % 4 * 16 + b.toNat / 16 := by omega
  have e3 : (a.toNat * 65536 + b.toNat * 256 + c.toNat) / 64 % 64 = b.toNat % 16 * 4 + c.toNat / 64 := by omega
  have e4 : (a.toNat * 65536 + b.toNat * 256 + c.toNat) % 64 = c.toNat % 64 := by omega
  rw [e1, e2, e3, e4]

theorem b64Groups_eq (f : B64Flags) : ∀ a : Bytes, a ≠ [] → b64Groups f a = .ok (base64Text (!f.noPadding) false a)
  | [], h => absurd rfl h
  | [a], _ => by
    have ha := a.toNat_lt
    rw [b64Groups, base64Text_one, b64Group_eq _ _ (by omega), be1]
    simp only [List.take_succ_cons, List.take_zero, List.map_cons, List.map_nil]
    have e1 : a.toNat * 65536 / 262144 % 64 = a.toNat / 4 := by omega
    have e2 : a.toNat * 65536 / 4096 % 64 = a.toNat % 4 * 16 := by omega
    rw [e1, e2]
    cases f.noPadding <;> simp
  | [a, b], _ => by
    have ha := a.toNat_lt; have hb := b.toNat_lt
    rw [b64Groups, base64Text_two, b64Group_eq _ _ (by omega), be2]
    simp only [List.take_succ_cons, List.take_zero, List.map_cons, List.map_nil]
    have e1 : (a.toNat * 65536 + b.toNat * 256) / 262144 % 64 = a.toNat / 4 := by omega
    have e2 : (a.toNat * 65536 + b.toNat * 256) / 4096 % 64 = a.toNat % 4 * 16 + b.toNat / 16 := by omega
    have e3 : (a.toNat * 65536 + b.toNat * 256) / 64 % 64 = b.toNat % 16 * 4 := by omega
    rw [e1, e2, e3]
    cases f.noPadding <;> simp
  | [a, b, c], _ => by
    rw [b64Groups, group3, base64Text_cons3, base64Text_nil]; simp
  | a :: b :: c :: d :: rest, _ => by
    rw [b64Groups, b64Groups_eq f (d :: rest) (by simp), base64Text_cons3]
    simp [group3]

theorem urlSafe_quad (a b c : UInt8) : (quad false a b c).map urlSafeChar = quad true a b c := by
  have ha := a.toNat_lt; have hb := b.toNat_lt; have hc := c.toNat_lt
  simp only [quad, List.map_cons, List.map_nil, b64ch_false]
  rw [b64ch_true _ (by omega), b64ch_true _ (by omega), b64ch_true _ (by omega), b64ch_true _ (by omega)]

theorem urlSafe_text (p : Bool) : ∀ a : Bytes, (base64Text p false a).map urlSafeChar = base64Text p true a
  | [] => by simp [base64Text_nil]
  | [a] => by
    have ha := a.toNat_lt
    rw [base64Text_one, base64Text_one, List.map_append]
    congr 1
    · simp only [List.map_cons, List.map_nil, b64ch_false]
      rw [b64ch_true _ (by omega), b64ch_true _ (by omega)]
    · cases p <;> decide
  | [a, b] => by
    have ha := a.toNat_lt; have hb := b.toNat_lt
    rw [base64Text_two, base64Text_two, List.map_append]
    congr 1
    · simp only [List.map_cons, List.map_nil, b64ch_false]
      rw [b64ch_true _ (by omega), b64ch_true _ (by omega), b64ch_true _ (by omega)]
    · cases p <;> decide
  | a :: b :: c :: rest => by
    rw [base64Text_cons3, base64Text_cons3, List.map_append, urlSafe_quad, urlSafe_text p rest]

theorem length_base64Text (p u : Bool) : ∀ a : Bytes,
    (base64Text p u a).length = toBase64Length a.length ⟨!p, u⟩
  | [] => by simp [base64Text_nil, toBase64Length]
  | [a] => by rw [base64Text_one]; cases p <;> simp [toBase64Length]
  | [a, b] => by rw [base64Text_two]; cases p <;> simp [toBase64Length]
  | a :: b :: c :: rest => by
    have ih := length_base64Text p u rest
    rw [base64Text_cons3, List.length_append, ih]
    simp only [quad, toBase64Length, List.length_cons, List.length_nil]
    have e1 : (rest.length + 1 + 1 + 1) / 3 = rest.length / 3 + 1 := by omega
    have e2 : (rest.length + 1 + 1 + 1) % 3 = rest.length % 3 := by omega
    rw [e1, e2]
    omega

/-! Decoder -/

theorem b64Step_ch (f : B64Flags) (nul : Bool) (fuel i : Nat) (val : UInt32) (s : Nat) (cs : Bytes) (hs : s < 64) :
    b64Step f nul (fuel + 1) i val (b64ch f.urlSafe s :: cs) =
      b64Step f nul fuel (i + 1) ((val <<< 6) + UInt32.ofNat s) cs := by
  have key : ∀ u : Bool, ∀ s < 64,
      (let c0 := b64ch u s
       let c := if c0 == 45 && u then 43 else c0
       let c := if c == 95 && u then 47 else c
       strchrIdx base64Chars c = some s ∧ (c == 0) = false) := by decide +kernel
  have := key f.urlSafe s hs
  simp only [] at this
  obtain ⟨k1, k2⟩ := this
  rw [b64Step]
  simp only [k1, k2, Bool.and_false, Bool.false_eq_true, if_false, List.isEmpty_cons, Bool.not_false, Bool.and_true]
  rw [Nat.mod_eq_of_lt hs]

theorem b64Step_eq (f : B64Flags) (nul : Bool) (fuel i : Nat) (val : UInt32) (cs : Bytes) (hi : i = 2 ∨ i = 3) :
    b64Step f nul (fuel + 1) i val (61 :: cs) = .endAt i val := by
  have k0 : strchrIdx base64Chars 61 = none := by decide +kernel
  rw [b64Step]
  have h1 : ((61 : UInt8) == 45) = false := by decide
  have h2 : ((61 : UInt8) == 95) = false := by decide
  simp only [h1, h2, Bool.false_and, Bool.false_eq_true, if_false, k0, beq_self_eq_true, Bool.true_or, if_true]
  rcases hi with rfl | rfl <;> rfl

theorem b64Step_nul (f : B64Flags) (fuel i : Nat) (val : UInt32) (hf : f.noPadding = true) (hi : i = 2 ∨ i = 3) :
    b64Step f true (fuel + 1) i val [] = .endAt i val := by
  have k0 : strchrIdx base64Chars 0 = some 64 := by decide +kernel
  rw [b64Step]
  have h1 : ((0 : UInt8) == 45) = false := by decide
  have h2 : ((0 : UInt8) == 95) = false := by decide
  simp only [if_true, h1, h2, Bool.false_and, Bool.false_eq_true, if_false, k0, hf, beq_self_eq_true, Bool.true_and]
  rcases hi with rfl | rfl <;> rfl

theorem shl6_add (v : UInt32) (s : Nat) (hv : v.toNat < 2 ^ 24) (hs : s < 64) :
    ((v <<< 6) + UInt32.ofNat s).toNat = v.toNat * 64 + s := by
  rw [UInt32.toNat_add, UInt32.toNat_shiftLeft]
  simp [Nat.shiftLeft_eq]
  omega

theorem step_quad (f : B64Flags) (nul : Bool) (a b c : UInt8) (rest : Bytes) :
    ∃ v : UInt32, b64Step f nul 4 0 0 (quad f.urlSafe a b c ++ rest) = .full v ∧
      v.toNat = a.toNat * 65536 + b.toNat * 256 + c.toNat := by
  have ha := a.toNat_lt; have hb := b.toNat_lt; have hc := c.toNat_lt
  simp only [quad, List.cons_append, List.nil_append]
  rw [b64Step_ch _ _ _ _ _ _ _ (by omega), b64Step_ch _ _ _ _ _ _ _ (by omega),
    b64Step_ch _ _ _ _ _ _ _ (by omega), b64Step_ch _ _ _ _ _ _ _ (by omega)]
  refine ⟨_, rfl, ?_⟩
  have h0 : (0 : UInt32).toNat = 0 := rfl
  have h1 := shl6_add 0 (a.toNat / 4) (by rw [h0]; omega) (by omega)
  have h2 := shl6_add _ (a.toNat % 4 * 16 + b.toNat / 16) (by rw [h1, h0]; omega) (by omega)
  have h3 := shl6_add _ (b.toNat % 16 * 4 + c.toNat / 64) (by rw [h2, h1, h0]; omega) (by omega)
  have h4 := shl6_add _ (c.toNat % 64) (by rw [h3, h2, h1, h0]; omega) (by omega)
  rw [h4, h3, h2, h1, h0]
  omega

theorem step_two (f : B64Flags) (nul : Bool) (a b : UInt8) (hn : f.noPadding = true → nul = true) :
    ∃ v : UInt32, b64Step f nul 4 0 0 (base64Text (!f.noPadding) f.urlSafe [a, b]) = .endAt 3 v ∧
      v.toNat = (a.toNat * 256 + b.toNat) * 4 := by
  have ha := a.toNat_lt; have hb := b.toNat_lt
  rw [base64Text_two]
  simp only [List.cons_append, List.nil_append]
  rw [b64Step_ch _ _ _ _ _ _ _ (by omega), b64Step_ch _ _ _ _ _ _ _ (by omega),
    b64Step_ch _ _ _ _ _ _ _ (by omega)]
  refine ⟨(((((0 : UInt32) <<< 6) + UInt32.ofNat (a.toNat / 4)) <<< 6) + UInt32.ofNat (a.toNat % 4 * 16 + b.toNat / 16)) <<< 6 +
    UInt32.ofNat (b.toNat % 16 * 4), ?_, ?_⟩
  · cases hp : f.noPadding with
    | false => simp only [Bool.not_false, if_true]; exact b64Step_eq _ _ _ _ _ _ (Or.inr rfl)
    | true =>
      simp only [Bool.not_true, Bool.false_eq_true, if_false]
      rw [hn hp]; exact b64Step_nul _ _ _ _ hp (Or.inr rfl)
  · have h0 : (0 : UInt32).toNat = 0 := rfl
    have h1 := shl6_add 0 (a.toNat / 4) (by rw [h0]; omega) (by omega)
    have h2 := shl6_add _ (a.toNat % 4 * 16 + b.toNat / 16) (by rw [h1, h0]; omega) (by omega)
    have h3 := shl6_add _ (b.toNat % 16 * 4) (by rw [h2, h1, h0]; omega) (by omega)
    rw [h3, h2, h1, h0]
    omega

theorem step_one (f : B64Flags) (nul : Bool) (a : UInt8) (hn : f.noPadding = true → nul = true) :
    ∃ v : UInt32, b64Step f nul 4 0 0 (base64Text (!f.noPadding) f.urlSafe [a]) = .endAt 2 v ∧
      v.toNat = a.toNat * 16 := by
  have ha := a.toNat_lt
  rw [base64Text_one]
  simp only [List.cons_append, List.nil_append]
  rw [b64Step_ch _ _ _ _ _ _ _ (by omega), b64Step_ch _ _ _ _ _ _ _ (by omega)]
  refine ⟨((((0 : UInt32) <<< 6) + UInt32.ofNat (a.toNat / 4)) <<< 6) + UInt32.ofNat (a.toNat % 4 * 16), ?_, ?_⟩
  · cases hp : f.noPadding with
    | false => simp only [Bool.not_false, if_true]; exact b64Step_eq _ _ _ _ _ _ (Or.inl rfl)
    | true =>
      simp only [Bool.not_true, Bool.false_eq_true, if_false]
      rw [hn hp]; exact b64Step_nul _ _ _ _ hp (Or.inl rfl)
  · have h0 : (0 : UInt32).toNat = 0 := rfl
    have h1 := shl6_add 0 (a.toNat / 4) (by rw [h0]; omega) (by omega)
    have h2 := shl6_add _ (a.toNat % 4 * 16) (by rw [h1, h0]; omega) (by omega)
    rw [h2, h1, h0]
    omega

theorem shr_toUInt8 (v : UInt32) (j : UInt32) (hj : j.toNat < 32) (x : UInt8)
    (h : v.toNat / 2 ^ j.toNat % 256 = x.toNat) : (v >>> j).toUInt8 = x := by
  apply UInt8.toNat_inj.mp
  rw [UInt32.toNat_toUInt8, UInt32.toNat_shiftRight, Nat.mod_eq_of_lt hj, Nat.shiftRight_eq_div_pow, ← h]

theorem toUInt8_of (v : UInt32) (x : UInt8) (h : v.toNat % 256 = x.toNat) : v.toUInt8 = x := by
  apply UInt8.toNat_inj.mp
  rw [UInt32.toNat_toUInt8, ← h]

theorem fromBase64Loop_text (f : B64Flags) (nul : Bool) (hn : f.noPadding = true → nul = true) (outSize : Nat) :
    ∀ (a done : Bytes) (fuel : Nat), a.length ≤ fuel → done.length + a.length ≤ outSize →
    fromBase64Loop f nul outSize fuel (base64Text (!f.noPadding) f.urlSafe a) done = .ok (some (done ++ a))
  | [], done, fuel, _, _ => by
    rw [base64Text_nil]
    cases fuel <;> simp [fromBase64Loop]
  | [a], done, fuel, hf, ho => by
    have ha := a.toNat_lt
    obtain ⟨v, h1, h2⟩ := step_one f nul a hn
    cases fuel with
    | zero => simp at hf
    | succ fuel =>
      rw [fromBase64Loop, h1]
      have hne : (base64Text (!f.noPadding) f.urlSafe [a]).isEmpty = false := by rw [base64Text_one]; rfl
      have hlen : (decide ((base64Text (!f.noPadding) f.urlSafe [a]).length ≤ 3) && !f.noPadding) = false := by
        rw [base64Text_one]; cases f.noPadding <;> simp
      rw [hne, hlen]
      simp only [Bool.false_eq_true, if_false]
      simp only [List.length_singleton] at ho
      rw [if_neg (by decide), if_neg (by omega)]
      rw [shr_toUInt8 v 4 (by decide) a (by rw [h2]; simp)]
  | [a, b], done, fuel, hf, ho => by
    have ha := a.toNat_lt; have hb := b.toNat_lt
    obtain ⟨v, h1, h2⟩ := step_two f nul a b hn
    cases fuel with
    | zero => simp at hf
    | succ fuel =>
      rw [fromBase64Loop, h1]
      have hne : (base64Text (!f.noPadding) f.urlSafe [a, b]).isEmpty = false := by rw [base64Text_two]; rfl
      have hlen : (decide ((base64Text (!f.noPadding) f.urlSafe [a, b]).length ≤ 3) && !f.noPadding) = false := by
        rw [base64Text_two]; cases f.noPadding <;> simp
      rw [hne, hlen]
      simp only [Bool.false_eq_true, if_false]
      simp only [List.length_cons, List.length_nil] at ho
      rw [if_pos (by decide), if_neg (by omega)]
      have hv : (v >>> 2).toNat = a.toNat * 256 + b.toNat := by
        rw [UInt32.toNat_shiftRight, h2, Nat.shiftRight_eq_div_pow]
        simp
      rw [shr_toUInt8 (v >>> 2) 8 (by decide) a (by rw [hv]; simp; omega),
        toUInt8_of (v >>> 2) b (by rw [hv]; omega)]
  | a :: b :: c :: rest, done, fuel, hf, ho => by
    have ha := a.toNat_lt; have hb := b.toNat_lt; have hc := c.toNat_lt
    obtain ⟨v, h1, h2⟩ := step_quad f nul a b c (base64Text (!f.noPadding) f.urlSafe rest)
    cases fuel with
    | zero => simp at hf
    | succ fuel =>
      simp only [List.length_cons] at hf ho
      rw [base64Text_cons3, fromBase64Loop, h1]
      have hne : (quad f.urlSafe a b c ++ base64Text (!f.noPadding) f.urlSafe rest).isEmpty = false := by simp [quad]
      have hlen : (decide ((quad f.urlSafe a b c ++ base64Text (!f.noPadding) f.urlSafe rest).length ≤ 3) &&
          !f.noPadding) = false := by
        simp [quad]
      rw [hne, hlen]
      simp only [Bool.false_eq_true, if_false]
      rw [if_neg (by omega), List.drop_left' (by simp [quad])]
      rw [shr_toUInt8 v 16 (by decide) a (by rw [h2]; simp; omega),
        shr_toUInt8 v 8 (by decide) b (by rw [h2]; simp; omega),
        toUInt8_of v c (by rw [h2]; omega)]
      rw [fromBase64Loop_text f nul hn outSize rest _ fuel (by omega) (by simp; omega)]
      simp

theorem ch_ne_eq (u : Bool) (s : Nat) (hs : s < 64) : (b64ch u s == 61) = false := by
  have : ∀ u : Bool, ∀ s < 64, (b64ch u s == 61) = false := by decide +kernel
  exact this u s hs

/-- Last two characters of a padded text. -/
theorem padded_last (u : Bool) : ∀ a : Bytes, a ≠ [] → ∃ pre x y, base64Text true u a = pre ++ [x, y] ∧
    (y == 61) = decide (a.length % 3 ≠ 0) ∧ (x == 61) = decide (a.length % 3 = 1)
  | [], h => absurd rfl h
  | [a], _ => by
    refine ⟨[b64ch u (a.toNat / 4), b64ch u (a.toNat % 4 * 16)], 61, 61, ?_, rfl, rfl⟩
    rw [base64Text_one]; rfl
  | [a, b], _ => by
    have hb := b.toNat_lt
    refine ⟨[b64ch u (a.toNat / 4), b64ch u (a.toNat % 4 * 16 + b.toNat / 16)],
      b64ch u (b.toNat % 16 * 4), 61, ?_, rfl, ?_⟩
    · rw [base64Text_two]; rfl
    · rw [ch_ne_eq _ _ (by omega)]; rfl
  | [a, b, c], _ => by
    have hc := c.toNat_lt; have hb := b.toNat_lt
    refine ⟨[b64ch u (a.toNat / 4), b64ch u (a.toNat % 4 * 16 + b.toNat / 16)],
      b64ch u (b.toNat % 16 * 4 + c.toNat / 64), b64ch u (c.toNat % 64), ?_, ?_, ?_⟩
    · rw [base64Text_cons3, base64Text_nil]; rfl
    · rw [ch_ne_eq _ _ (by omega)]; simp
    · rw [ch_ne_eq _ _ (by omega)]; simp
  | a :: b :: c :: d :: rest, _ => by
    obtain ⟨pre, x, y, h1, h2, h3⟩ := padded_last u (d :: rest) (by simp)
    refine ⟨quad u a b c ++ pre, x, y, ?_, ?_, ?_⟩
    · rw [base64Text_cons3, h1, List.append_assoc]
    · rw [h2, decide_eq_decide]; simp; omega
    · rw [h3, decide_eq_decide]; simp; omega

theorem fromBase64Length_text (f : B64Flags) : ∀ a : Bytes, a ≠ [] →
    fromBase64Length (base64Text (!f.noPadding) f.urlSafe a) f = .ok a.length := by
  intro a ha
  have hl := length_base64Text (!f.noPadding) f.urlSafe a
  have hn : 0 < a.length := List.length_pos_iff.mpr ha
  cases hp : f.noPadding with
  | true =>
    rw [hp] at hl
    unfold fromBase64Length
    simp only [hp, Bool.not_true, Bool.and_false, Bool.false_eq_true, if_false, if_true] at hl ⊢
    rw [hl]
    simp only [toBase64Length, Bool.not_false, if_true]
    congr 1
    by_cases h0 : a.length % 3 = 0
    · simp [h0]; omega
    · have : (a.length % 3 != 0) = true := by simpa using h0
      simp only [this, if_true]
      rw [if_pos (by simp; omega)]
      omega
  | false =>
    rw [hp] at hl
    obtain ⟨pre, x, y, h1, h2, h3⟩ := padded_last f.urlSafe a ha
    have hl4 : (pre ++ [x, y]).length = (a.length + 2) / 3 * 4 := by
      rw [← h1]
      simp only [Bool.not_false] at hl
      rw [hl]
      simp only [toBase64Length, Bool.not_true, Bool.false_eq_true, if_false]
      by_cases h0 : a.length % 3 = 0
      · simp [h0]; omega
      · have : (a.length % 3 != 0) = true := by simpa using h0
        simp only [this, if_true]; omega
    have hpl : pre.length = (a.length + 2) / 3 * 4 - 2 := by simp at hl4; omega
    unfold fromBase64Length
    simp only [Bool.not_false, h1, hl4, hp, Bool.and_true, Bool.false_eq_true, if_false]
    rw [if_neg (by simp), if_neg (by omega)]
    have g1 : (pre ++ [x, y]).getD ((a.length + 2) / 3 * 4 - 1) 0 = y := by
      rw [List.getD_eq_getElem?_getD, List.getElem?_append_right (by omega)]
      rw [hpl, show (a.length + 2) / 3 * 4 - 1 - ((a.length + 2) / 3 * 4 - 2) = 1 by omega]; rfl
    have g2 : (pre ++ [x, y]).getD ((a.length + 2) / 3 * 4 - 2) 0 = x := by
      rw [List.getD_eq_getElem?_getD, List.getElem?_append_right (by omega)]
      rw [hpl, Nat.sub_self]; rfl
    rw [g1, g2, h2, h3]
    congr 1
    have : a.length % 3 = 0 ∨ a.length % 3 = 1 ∨ a.length % 3 = 2 := by omega
    rcases this with h | h | h <;> simp [h] <;> omega

end UB
