import Verif.Model.Bech32
import Verif.Spec.Bech32
import Verif.Lemmas.Bytes

namespace UB
open Spec

/-! ### The checksum step is linear -/

def msk (p : Bool) (g : Nat) : Nat := if p then g else 0

theorem msk_xor (p q : Bool) (g : Nat) : msk (p ^^ q) g = msk p g ^^^ msk q g := by
  cases p <;> cases q <;> simp [msk]

/-- One step feeding the value zero. -/
def stepZ (c : Nat) : Nat :=
  ((c &&& 0x1ffffff) <<< 5) ^^^ msk ((c >>> 25).testBit 0) 0x3b6a57b2 ^^^ msk ((c >>> 25).testBit 1) 0x26508e6d
    ^^^ msk ((c >>> 25).testBit 2) 0x1ea119fa ^^^ msk ((c >>> 25).testBit 3) 0x3d4233dd
    ^^^ msk ((c >>> 25).testBit 4) 0x2a1462b3

theorem ite_xor (p : Bool) (c g : Nat) : (if p = true then c ^^^ g else c) = c ^^^ msk p g := by
  cases p <;> simp [msk]

theorem polymodStep_eq (c v : Nat) : polymodStep c v = stepZ c ^^^ v := by
  simp only [polymodStep, bechGen, List.zipIdx_cons, List.zipIdx_nil, List.foldl_cons, List.foldl_nil, ite_xor, stepZ]
  simp only [Nat.xor_assoc, Nat.zero_add, Nat.reduceAdd]
  congr 1
  rw [Nat.xor_comm v]
  simp only [Nat.xor_assoc]

theorem stepZ_xor (a b : Nat) : stepZ (a ^^^ b) = stepZ a ^^^ stepZ b := by
  simp only [stepZ, Nat.shiftRight_xor_distrib, Nat.testBit_xor, msk_xor, Nat.and_xor_distrib_right,
    Nat.shiftLeft_xor_distrib]
  ac_rfl

theorem stepZ_zero : stepZ 0 = 0 := by decide

theorem mask_eq (b : UInt8) :
    ((0 : UInt32) - ((b >>> 0) &&& 1).toUInt32) &&& 0x3b6a57b2 = UInt32.ofNat (msk (b.toNat.testBit 0) 0x3b6a57b2) ∧
    ((0 : UInt32) - ((b >>> 1) &&& 1).toUInt32) &&& 0x26508e6d = UInt32.ofNat (msk (b.toNat.testBit 1) 0x26508e6d) ∧
    ((0 : UInt32) - ((b >>> 2) &&& 1).toUInt32) &&& 0x1ea119fa = UInt32.ofNat (msk (b.toNat.testBit 2) 0x1ea119fa) ∧
    ((0 : UInt32) - ((b >>> 3) &&& 1).toUInt32) &&& 0x3d4233dd = UInt32.ofNat (msk (b.toNat.testBit 3) 0x3d4233dd) ∧
    ((0 : UInt32) - ((b >>> 4) &&& 1).toUInt32) &&& 0x2a1462b3 = UInt32.ofNat (msk (b.toNat.testBit 4) 0x2a1462b3) := by
  revert b
  apply forall_byte
  decide +kernel

theorem msk_mod (p : Bool) (g : Nat) (h : g < 2 ^ 32) : (UInt32.ofNat (msk p g)).toNat = msk p g := by
  rw [UInt32.toNat_ofNat']
  apply Nat.mod_eq_of_lt
  cases p <;> simp [msk] <;> omega

theorem step_toNat (c : UInt32) : (bech32PolymodStep c).toNat = stepZ c.toNat := by
  have hb : ((c >>> 25).toUInt8).toNat = c.toNat >>> 25 := by
    have := c.toNat_lt
    simp only [UInt32.toNat_toUInt8, UInt32.toNat_shiftRight, UInt32.reduceToNat, Nat.reduceMod,
      Nat.shiftRight_eq_div_pow]
    omega
  have hm := mask_eq ((c >>> 25).toUInt8)
  simp only [bech32PolymodStep]
  rw [hm.1, hm.2.1, hm.2.2.1, hm.2.2.2.1, hm.2.2.2.2]
  simp only [UInt32.toNat_xor]
  rw [msk_mod _ _ (by decide), msk_mod _ _ (by decide), msk_mod _ _ (by decide), msk_mod _ _ (by decide),
    msk_mod _ _ (by decide), hb, stepZ]
  congr 5
  simp only [UInt32.toNat_shiftLeft, UInt32.toNat_and, UInt32.reduceToNat, Nat.reduceMod]
  apply Nat.mod_eq_of_lt
  have : c.toNat &&& 33554431 ≤ 33554431 := Nat.and_le_right
  rw [Nat.shiftLeft_eq]
  omega

theorem step_xor_toNat (c : UInt32) (v : UInt32) :
    (bech32PolymodStep c ^^^ v).toNat = polymodStep c.toNat v.toNat := by
  rw [UInt32.toNat_xor, step_toNat, polymodStep_eq]

theorem stepZ_lt (c : Nat) : stepZ c < 2 ^ 30 := by
  have hm : ∀ p g, g < 2 ^ 30 → msk p g < 2 ^ 30 := by
    intro p g h; cases p <;> simp [msk] <;> omega
  have h0 : (c &&& 0x1ffffff) <<< 5 < 2 ^ 30 := by
    have : c &&& 33554431 ≤ 33554431 := Nat.and_le_right
    rw [Nat.shiftLeft_eq]; omega
  unfold stepZ
  refine Nat.xor_lt_two_pow (Nat.xor_lt_two_pow (Nat.xor_lt_two_pow (Nat.xor_lt_two_pow (Nat.xor_lt_two_pow h0 ?_) ?_) ?_) ?_) ?_ <;>
    exact hm _ _ (by decide)

/-- Linearity of a whole run. -/
def runZ (c : Nat) (vs : List Nat) : Nat := vs.foldl polymodStep c

theorem runZ_nil (c : Nat) : runZ c [] = c := rfl
theorem runZ_cons (c v : Nat) (vs : List Nat) : runZ c (v :: vs) = runZ (stepZ c ^^^ v) vs := by
  simp [runZ, polymodStep_eq]
theorem runZ_append (c : Nat) (a b : List Nat) : runZ c (a ++ b) = runZ (runZ c a) b := by
  simp [runZ]

theorem runZ_xor (vs ws : List Nat) (h : vs.length = ws.length) (c d : Nat) :
    runZ (c ^^^ d) (List.zipWith (· ^^^ ·) vs ws) = runZ c vs ^^^ runZ d ws := by
  induction vs generalizing ws c d with
  | nil => cases ws <;> simp_all [runZ]
  | cons v vs ih =>
    cases ws with
    | nil => simp at h
    | cons w ws =>
      simp only [List.zipWith_cons_cons, runZ_cons]
      rw [← ih ws (by simpa using h)]
      congr 1
      rw [stepZ_xor]
      ac_rfl

theorem runZ_zeros (n : Nat) : runZ 0 (List.replicate n 0) = 0 := by
  induction n with
  | zero => rfl
  | succ n ih => rw [List.replicate_succ, runZ_cons, stepZ_zero]; exact ih

/-- A run splits into the run of the state on zeros and the run of the values from zero. -/
theorem runZ_split (c : Nat) (vs : List Nat) : runZ c vs = runZ c (List.replicate vs.length 0) ^^^ runZ 0 vs := by
  rw [← runZ_xor _ _ (by simp)]
  congr 1
  · simp
  · apply List.ext_getElem <;> simp

/-! ### The checksum characters -/

theorem small_shift (v : Nat) (h : v < 32) : stepZ v = v * 32 ∧ stepZ (v * 32) = v * 1024 ∧
    stepZ (v * 1024) = v * 32768 ∧ stepZ (v * 32768) = v * 1048576 ∧ stepZ (v * 1048576) = v * 33554432 := by
  revert v; decide +kernel

/-- Six values read as a number in base 32. -/
theorem runZ_six (a b c d e f : Nat) (ha : a < 32) (hb : b < 32) (hc : c < 32) (hd : d < 32) (he : e < 32) :
    runZ 0 [a, b, c, d, e, f] = a * 33554432 ^^^ b * 1048576 ^^^ c * 32768 ^^^ d * 1024 ^^^ e * 32 ^^^ f := by
  have h0 : ∀ x, stepZ 0 ^^^ x = x := by intro x; rw [stepZ_zero]; simp
  simp only [runZ_cons, runZ_nil, h0, stepZ_xor]
  obtain ⟨a1, a2, a3, a4, a5⟩ := small_shift a ha
  obtain ⟨b1, b2, b3, b4, -⟩ := small_shift b hb
  obtain ⟨c1, c2, c3, -⟩ := small_shift c hc
  obtain ⟨d1, d2, -⟩ := small_shift d hd
  obtain ⟨e1, -⟩ := small_shift e he
  rw [a1, a2, a3, a4, a5, b1, b2, b3, b4, c1, c2, c3, d1, d2, e1]

theorem xor_add (a b k : Nat) (h : b < 2 ^ k) : a * 2 ^ k ^^^ b = a * 2 ^ k + b := by
  rw [Nat.mul_comm, Nat.two_pow_add_eq_or_of_lt h]
  apply Nat.eq_of_testBit_eq
  intro i
  simp only [Nat.testBit_xor, Nat.testBit_or, Nat.testBit_two_pow_mul]
  by_cases hi : k ≤ i
  · have : b.testBit i = false := Nat.testBit_lt_two_pow (Nat.lt_of_lt_of_le h (Nat.pow_le_pow_right (by decide) hi))
    simp [hi, this]
  · simp [hi]

theorem six_digits (t : Nat) (h : t < 2 ^ 30) :
    t / 33554432 * 33554432 ^^^ t / 1048576 % 32 * 1048576 ^^^ t / 32768 % 32 * 32768 ^^^ t / 1024 % 32 * 1024
      ^^^ t / 32 % 32 * 32 ^^^ t % 32 = t := by
  have e5 := xor_add (t / 32 % 32) (t % 32) 5 (by omega)
  have e10 := xor_add (t / 1024 % 32) (t / 32 % 32 * 32 + t % 32) 10 (by omega)
  have e15 := xor_add (t / 32768 % 32) (t / 1024 % 32 * 1024 + (t / 32 % 32 * 32 + t % 32)) 15 (by omega)
  have e20 := xor_add (t / 1048576 % 32) (t / 32768 % 32 * 32768 + (t / 1024 % 32 * 1024 + (t / 32 % 32 * 32 + t % 32))) 20 (by omega)
  have e25 := xor_add (t / 33554432) (t / 1048576 % 32 * 1048576 + (t / 32768 % 32 * 32768 + (t / 1024 % 32 * 1024 + (t / 32 % 32 * 32 + t % 32)))) 25 (by omega)
  simp only [Nat.reducePow] at e5 e10 e15 e20 e25
  simp only [Nat.xor_assoc]
  rw [e5, e10, e15, e20, e25]
  omega

/-- The six values of the checksum. -/
def checksumValues (t : Nat) : List Nat :=
  [t / 33554432, t / 1048576 % 32, t / 32768 % 32, t / 1024 % 32, t / 32 % 32, t % 32]

theorem runZ_checksum (c : Nat) : runZ c (checksumValues (runZ c (List.replicate 6 0) ^^^ 1)) = 1 := by
  rw [runZ_split]
  have hlt : runZ c (List.replicate 6 0) < 2 ^ 30 := by
    rw [show List.replicate 6 0 = List.replicate 5 0 ++ [0] from rfl, runZ_append, runZ_cons, runZ_nil]
    simpa using stepZ_lt _
  have ht : runZ c (List.replicate 6 0) ^^^ 1 < 2 ^ 30 := Nat.xor_lt_two_pow hlt (by decide)
  show runZ c (List.replicate 6 0) ^^^ _ = 1
  generalize runZ c (List.replicate 6 0) = u at *
  rw [checksumValues, runZ_six _ _ _ _ _ _ (by omega) (by omega) (by omega) (by omega) (by omega), six_digits _ ht,
    ← Nat.xor_assoc, Nat.xor_self, Nat.zero_xor]

end UB
