import Mathlib.Tactic.Positivity
import Verif.Lemmas.Ints

/-
C09 endian integer conversions, C10 variable-length integers.
-/

namespace UB
open Spec

/-- C09: writing a 64-bit integer into `k ≤ 8` bytes and reading it back gives it modulo `256^k`. -/
theorem C09_le_write_read (num : UInt64) (k : Nat) (hk : k ≤ 8) :
    ∃ b, intToLittleEndian num k = .ok b ∧ b.length = k ∧
      (littleEndianToInt b).toNat = num.toNat % 256 ^ k := by
  refine ⟨_, intToLittleEndian_eq num k hk, by simp, ?_⟩
  rw [littleEndianToInt_eq, leValue_leBytes]
  apply Nat.mod_eq_of_lt
  have h1 := Nat.mod_lt num.toNat (show 0 < 256 ^ k by positivity)
  have h2 : 256 ^ k ≤ 256 ^ 8 := Nat.pow_le_pow_right (by omega) hk
  omega

/-- C09: reading `k ≤ 8` bytes and writing the integer back gives the same bytes. -/
theorem C09_le_read_write (a : Bytes) (hk : a.length ≤ 8) :
    (littleEndianToInt a).toNat = leValue a ∧
    intToLittleEndian (littleEndianToInt a) a.length = .ok a := by
  have h : (littleEndianToInt a).toNat = leValue a := by
    rw [littleEndianToInt_eq]
    apply Nat.mod_eq_of_lt
    have h1 := leValue_lt a
    have h2 : 256 ^ a.length ≤ 256 ^ 8 := Nat.pow_le_pow_right (by omega) hk
    omega
  exact ⟨h, by rw [intToLittleEndian_eq _ _ hk, h, leBytes_leValue]⟩

/-- C09: big-endian writing and reading. -/
theorem C09_be_write_read (num : UInt64) (k : Nat) (hk : k ≤ 8) :
    ∃ b, intToBigEndian num k = .ok b ∧ b.length = k ∧
      (bigEndianToInt b).toNat = num.toNat % 256 ^ k := by
  refine ⟨(leBytes k num.toNat).reverse, by simp [intToBigEndian, intToLittleEndian_eq num k hk], by simp, ?_⟩
  have e : beValue (leBytes k num.toNat).reverse = leValue (leBytes k num.toNat) := rfl
  rw [bigEndianToInt_eq, e, leValue_leBytes]
  apply Nat.mod_eq_of_lt
  have h1 := Nat.mod_lt num.toNat (show 0 < 256 ^ k by positivity)
  have h2 : 256 ^ k ≤ 256 ^ 8 := Nat.pow_le_pow_right (by omega) hk
  omega

/-- C09: reading big-endian bytes gives their value and writing it back gives the same bytes. -/
theorem C09_be_read_write (a : Bytes) (hk : a.length ≤ 8) :
    (bigEndianToInt a).toNat = beValue a ∧
    intToBigEndian (bigEndianToInt a) a.length = .ok a := by
  have h : (bigEndianToInt a).toNat = beValue a := by
    rw [bigEndianToInt_eq]
    apply Nat.mod_eq_of_lt
    have h1 := beValue_lt a
    have h2 : 256 ^ a.length ≤ 256 ^ 8 := Nat.pow_le_pow_right (by omega) hk
    omega
  refine ⟨h, ?_⟩
  have e : beValue a = leValue a.reverse := by simp [leValue]
  have := leBytes_leValue a.reverse
  rw [List.length_reverse] at this
  simp [intToBigEndian, intToLittleEndian_eq _ _ hk, h, e, this]

/-- C09: the big-endian bytes are the little-endian bytes reversed. -/
theorem C09_be_reverse_le (num : UInt64) (k : Nat) (hk : k ≤ 8) :
    ∃ b, intToLittleEndian num k = .ok b ∧ intToBigEndian num k = .ok b.reverse :=
  ⟨leBytes k num.toNat, intToLittleEndian_eq num k hk, by simp [intToBigEndian, intToLittleEndian_eq num k hk]⟩

example : intToLittleEndian 0x123456 4 = .ok [0x56, 0x34, 0x12, 0] ∧ bigEndianToInt [1, 2] = 258 := by decide

/-- C09, limit of the claim: a width above eight bytes shifts by 64 or more, which is undefined. -/
theorem C09_wide_undefined (num : UInt64) (k : Nat) (hk : 8 < k) : intToLittleEndian num k = .ub := by
  unfold intToLittleEndian; rw [if_neg (by omega)]

/-- C10: `writeVarInt` stores exactly the CompactSize encoding when it fits (rest of the buffer kept),
and touches nothing otherwise. -/
theorem C10_writeVarInt_exact (num : UInt64) (arr : Bytes) :
    writeVarInt num arr = .ok
      (if arr.length < (compactSize num.toNat).length then (0, arr)
       else ((compactSize num.toNat).length,
        compactSize num.toNat ++ arr.drop (compactSize num.toNat).length)) :=
  writeVarInt_eq num arr

/-- C10: `lenVarInt` is the length of the encoding. -/
theorem C10_lenVarInt (num : UInt64) : lenVarInt num = (compactSize num.toNat).length := lenVarInt_eq num

/-- C10: reading back what was written, followed by anything, gives the integer. -/
theorem C10_read_write (num : UInt64) (arr : Bytes) (h : lenVarInt num ≤ arr.length) :
    ∃ n a, writeVarInt num arr = .ok (n, a) ∧ n = lenVarInt num ∧ readVarInt a = .ok num := by
  rw [lenVarInt_eq] at h ⊢
  refine ⟨_, _, by rw [writeVarInt_eq, if_neg (by omega)], rfl, ?_⟩
  exact readVarInt_compactSize num _

example : lenVarInt 70000 ≤ (zeros 5).length ∧
    writeVarInt 70000 (zeros 5) = .ok (5, [0xfe, 0x70, 0x11, 1, 0]) := by decide

/-- C10: encodings are prefix-free: if one encoding followed by anything equals another followed by
anything, the integers are equal. -/
theorem C10_prefix_free (m n : UInt64) (x y : Bytes)
    (h : compactSize m.toNat ++ x = compactSize n.toNat ++ y) : m = n := by
  have h1 := readVarInt_compactSize m x
  have h2 := readVarInt_compactSize n y
  rw [h, h2] at h1
  exact (C.ok.inj h1).symm

/-- C10: a truncated multi-byte encoding reads as 0, within the buffer. -/
theorem C10_truncated (num : UInt64) (k : Nat) (h0 : 0 < k) (hk : k < (compactSize num.toNat).length) :
    readVarInt ((compactSize num.toNat).take k) = .ok 0 := by
  unfold compactSize at hk ⊢
  obtain ⟨j, rfl⟩ : ∃ j, k = j + 1 := ⟨k - 1, by omega⟩
  split at hk
  · simp at hk
  · rename_i c1
    rw [if_neg c1]
    split at hk
    · rename_i c2
      simp only [List.length_cons, length_leBytes] at hk
      simp only [if_pos c2, List.take_succ_cons, readVarInt]
      rw [if_neg (by decide), if_pos]
      simp; omega
    · rename_i c2
      split at hk
      · rename_i c3
        simp only [List.length_cons, length_leBytes] at hk
        simp only [if_neg c2, if_pos c3, List.take_succ_cons, readVarInt]
        rw [if_neg (by decide), if_pos]
        simp; omega
      · rename_i c3
        simp only [List.length_cons, length_leBytes] at hk
        simp only [if_neg c2, if_neg c3, List.take_succ_cons, readVarInt]
        rw [if_neg (by decide), if_pos]
        simp; omega

example : 0 < 3 ∧ 3 < (compactSize (UInt64.toNat 70000)).length := by decide

/-- C10: on any non-empty buffer `readVarInt` stays in bounds (on an empty one it reads `array[0]`). -/
theorem C10_readVarInt_safe (a : Bytes) (h : a ≠ []) : readVarInt a ≠ .ub := by
  cases a with
  | nil => exact absurd rfl h
  | cons a0 rest =>
    simp only [readVarInt]
    split
    · simp
    · split <;> simp

example : ([0xff, 1] : Bytes) ≠ [] := by decide

end UB
