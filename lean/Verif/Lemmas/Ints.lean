import Mathlib.Tactic.Ring
import Verif.Model.Conversion
import Verif.Spec.Ints
import Verif.Lemmas.Bytes

namespace UB
open Spec

@[simp] theorem length_leBytes (k n : Nat) : (leBytes k n).length = k := by
  induction k generalizing n with
  | zero => rfl
  | succ k ih => simp [leBytes, ih]

theorem leValue_leBytes (k n : Nat) : leValue (leBytes k n) = n % 256 ^ k := by
  induction k generalizing n with
  | zero => simp [leBytes, leValue_nil, Nat.mod_one]
  | succ k ih =>
    rw [leBytes, leValue_cons, ih, Nat.pow_succ, Nat.mul_comm (256 ^ k), Nat.mod_mul]
    simp

theorem leBytes_leValue (a : Bytes) : leBytes a.length (leValue a) = a := by
  apply leValue_inj (by simp)
  rw [leValue_leBytes, Nat.mod_eq_of_lt (leValue_lt a)]

theorem leBytes_mod (k n : Nat) : leBytes k (n % 256 ^ k) = leBytes k n := by
  apply leValue_inj (by simp)
  rw [leValue_leBytes, leValue_leBytes, Nat.mod_mod]

theorem leBytes_inj {k m n : Nat} (hm : m < 256 ^ k) (hn : n < 256 ^ k) (h : leBytes k m = leBytes k n) :
    m = n := by
  have := congrArg leValue h
  rwa [leValue_leBytes, leValue_leBytes, Nat.mod_eq_of_lt hm, Nat.mod_eq_of_lt hn] at this

theorem range_map_leBytes (k n : Nat) (f : Nat → UInt8) (hf : ∀ i < k, f i = UInt8.ofNat (n / 256 ^ i)) :
    (List.range k).map f = leBytes k n := by
  induction k generalizing n f with
  | zero => rfl
  | succ k ih =>
    rw [List.range_succ_eq_map, List.map_cons, leBytes, List.map_map]
    congr 1
    · rw [hf 0 (by omega)]; apply UInt8.toNat_inj.mp; simp
    · apply ih
      intro i hi
      simp only [Function.comp]
      rw [hf (i + 1) (by omega), Nat.pow_succ, Nat.div_div_eq_div_mul, Nat.mul_comm 256]

theorem leByte_of_shift (num : UInt64) (i : Nat) (hi : i < 8) :
    (num >>> (UInt64.ofNat (8 * i)) &&& 0xFF).toUInt8 = UInt8.ofNat (num.toNat / 256 ^ i) := by
  apply UInt8.toNat_inj.mp
  have h1 : (UInt64.ofNat (8 * i)).toNat = 8 * i := by simp; omega
  rw [UInt64.toNat_toUInt8, UInt64.toNat_and, UInt64.toNat_shiftRight, h1]
  have h2 : 8 * i % 64 = 8 * i := by omega
  rw [h2, Nat.shiftRight_eq_div_pow]
  have h3 : (0xFF : UInt64).toNat = 2 ^ 8 - 1 := by decide
  rw [h3, Nat.and_two_pow_sub_one_eq_mod]
  have h4 : 2 ^ (8 * i) = 256 ^ i := by rw [show (256 : Nat) = 2 ^ 8 from rfl, ← Nat.pow_mul]
  rw [h4]
  simp

/-- `intToLittleEndian` writes the little-endian bytes. -/
theorem intToLittleEndian_eq (num : UInt64) (k : Nat) (hk : k ≤ 8) :
    intToLittleEndian num k = .ok (leBytes k num.toNat) := by
  unfold intToLittleEndian
  rw [if_pos hk]
  congr 1
  exact range_map_leBytes k num.toNat _ (fun i hi => leByte_of_shift num i (by omega))

theorem toNat_shl8_add (num : UInt64) (b : UInt8) :
    ((num <<< 8) + b.toUInt64).toNat = (num.toNat * 256 + b.toNat) % 2 ^ 64 := by
  rw [UInt64.toNat_add, UInt64.toNat_shiftLeft]
  simp [Nat.shiftLeft_eq]

theorem foldl_u64 (a : Bytes) (x : UInt64) :
    (a.foldl (fun (num : UInt64) b => (num <<< 8) + b.toUInt64) x).toNat =
      (a.foldl (fun acc b => acc * 256 + b.toNat) x.toNat) % 2 ^ 64 := by
  induction a generalizing x with
  | nil => simp
  | cons b bs ih =>
    rw [List.foldl_cons, ih, List.foldl_cons, toNat_shl8_add, foldl_beValue, foldl_beValue]
    rw [Nat.add_mod, Nat.mul_mod, Nat.mod_mod, ← Nat.mul_mod, ← Nat.add_mod]

theorem bigEndianToInt_eq (a : Bytes) : (bigEndianToInt a).toNat = beValue a % 2 ^ 64 := by
  unfold bigEndianToInt
  rw [foldl_u64]; rfl

theorem littleEndianToInt_eq (a : Bytes) : (littleEndianToInt a).toNat = leValue a % 2 ^ 64 := by
  unfold littleEndianToInt
  rw [foldl_u64]; rfl

theorem shr_eq_zero (num : UInt64) (k : Nat) (hk : k < 64) :
    ((num >>> (UInt64.ofNat k)) == 0) = decide (num.toNat < 2 ^ k) := by
  have h1 : (UInt64.ofNat k).toNat = k := by simp; omega
  rw [Bool.eq_iff_iff]
  simp only [beq_iff_eq, decide_eq_true_eq]
  rw [← UInt64.toNat_inj, UInt64.toNat_shiftRight, h1, Nat.mod_eq_of_lt hk, Nat.shiftRight_eq_div_pow]
  simp [Nat.div_eq_zero_iff]

theorem lenVarInt_eq (num : UInt64) : lenVarInt num = (compactSize num.toNat).length := by
  unfold lenVarInt compactSize
  have h1 : (num < 0xfd) ↔ num.toNat < 253 := by rw [UInt64.lt_iff_toNat_lt]; rfl
  have h2 := shr_eq_zero num 16 (by omega)
  have h3 := shr_eq_zero num 32 (by omega)
  have e2 : UInt64.ofNat 16 = 16 := rfl
  have e3 : UInt64.ofNat 32 = 32 := rfl
  rw [e2] at h2; rw [e3] at h3
  by_cases c1 : num.toNat < 253
  · rw [if_pos (h1.mpr c1), if_pos c1]; simp
  · rw [if_neg (fun h => c1 (h1.mp h)), if_neg c1, h2]
    by_cases c2 : num.toNat < 65536
    · rw [if_pos (by simpa using c2), if_pos c2]; simp
    · rw [if_neg (by simpa using c2), if_neg c2, h3]
      by_cases c3 : num.toNat < 4294967296
      · rw [if_pos (by simpa using c3), if_pos c3]; simp
      · rw [if_neg (by simpa using c3), if_neg c3]; simp

theorem writeVarInt_eq (num : UInt64) (arr : Bytes) :
    writeVarInt num arr = .ok
      (if arr.length < (compactSize num.toNat).length then (0, arr)
       else ((compactSize num.toNat).length,
        compactSize num.toNat ++ arr.drop (compactSize num.toNat).length)) := by
  have hl := lenVarInt_eq num
  unfold writeVarInt
  simp only [hl]
  by_cases hs : arr.length < (compactSize num.toNat).length
  · simp [if_pos hs]
  · rw [if_neg hs, if_neg hs]
    unfold compactSize at hs ⊢
    by_cases c1 : num.toNat < 253
    · simp only [if_pos c1] at hs ⊢
      have : (num &&& 0xFF).toUInt8 = UInt8.ofNat num.toNat := by
        apply UInt8.toNat_inj.mp
        rw [UInt64.toNat_toUInt8, UInt64.toNat_and]
        have h3 : (0xFF : UInt64).toNat = 2 ^ 8 - 1 := by decide
        rw [h3, Nat.and_two_pow_sub_one_eq_mod]; simp
      simp only [List.length_singleton] at hs
      simp [store, this, show 1 ≤ arr.length by omega]
    · simp only [if_neg c1] at hs ⊢
      by_cases c2 : num.toNat < 65536
      · simp only [if_pos c2, List.length_cons, length_leBytes] at hs ⊢
        simp [intToLittleEndian_eq, store, show 3 ≤ arr.length by omega]
      · simp only [if_neg c2] at hs ⊢
        by_cases c3 : num.toNat < 4294967296
        · simp only [if_pos c3, List.length_cons, length_leBytes] at hs ⊢
          simp [intToLittleEndian_eq, store, show 5 ≤ arr.length by omega]
        · simp only [if_neg c3, List.length_cons, length_leBytes] at hs ⊢
          simp [intToLittleEndian_eq, store, show 9 ≤ arr.length by omega]

theorem readVarInt_compactSize (num : UInt64) (rest : Bytes) :
    readVarInt (compactSize num.toNat ++ rest) = .ok num := by
  have hn := num.toNat_lt
  have toOk : ∀ (k : Nat), num.toNat < 256 ^ k → k ≤ 8 → littleEndianToInt (leBytes k num.toNat) = num := by
    intro k hk h8
    apply UInt64.toNat_inj.mp
    rw [littleEndianToInt_eq, leValue_leBytes, Nat.mod_eq_of_lt hk, Nat.mod_eq_of_lt hn]
  unfold compactSize
  by_cases c1 : num.toNat < 253
  · rw [if_pos c1]
    simp only [List.cons_append, List.nil_append, readVarInt]
    have hlt : UInt8.ofNat num.toNat < 0xfd := by
      rw [UInt8.lt_iff_toNat_lt]; simp; omega
    rw [if_pos hlt]
    congr 1
    apply UInt64.toNat_inj.mp
    simp
    omega
  · rw [if_neg c1]
    by_cases c2 : num.toNat < 65536
    · rw [if_pos c2]
      simp only [List.cons_append, readVarInt]
      rw [if_neg (by decide), if_neg (by simp)]
      rw [List.take_left' (by simp), toOk 2 (by omega) (by omega)]
    · rw [if_neg c2]
      by_cases c3 : num.toNat < 4294967296
      · rw [if_pos c3]
        simp only [List.cons_append, readVarInt]
        rw [if_neg (by decide), if_neg (by simp)]
        rw [List.take_left' (by simp), toOk 4 (by omega) (by omega)]
      · rw [if_neg c3]
        simp only [List.cons_append, readVarInt]
        rw [if_neg (by decide), if_neg (by simp)]
        rw [List.take_left' (by simp), toOk 8 (by omega) (by omega)]

end UB
