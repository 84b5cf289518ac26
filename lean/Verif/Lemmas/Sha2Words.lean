import Verif.Lemmas.Sha2Stream
import Mathlib.Tactic.IntervalCases

/-
Byte order: `REVERSE32` and `REVERSE64` turn host words into big-endian words.
-/

namespace UB

theorem getLsbD_cat {n : Nat} (x : BitVec 8) (y : BitVec n) (i : Nat) :
    (x ++ y).getLsbD i = if i < n then y.getLsbD i else x.getLsbD (i - n) := by
  rw [BitVec.getLsbD_append]

theorem rev32_bits (x : UInt32) (i : Nat) (hi : i < 32) :
    (REVERSE32 x).toBitVec.getLsbD i = x.toBitVec.getLsbD (8 * (3 - i / 8) + i % 8) := by
  simp only [REVERSE32]
  simp
  interval_cases i <;> simp

theorem rev64_bits (x : UInt64) (i : Nat) (hi : i < 64) :
    (REVERSE64 x).toBitVec.getLsbD i = x.toBitVec.getLsbD (8 * (7 - i / 8) + i % 8) := by
  simp only [REVERSE64]
  simp
  interval_cases i <;> simp

theorem rev32_bv (b0 b1 b2 b3 : BitVec 8) :
    REVERSE32 ⟨b3 ++ (b2 ++ (b1 ++ b0))⟩ = ⟨b0 ++ (b1 ++ (b2 ++ b3))⟩ := by
  apply UInt32.toBitVec_inj.mp
  apply BitVec.eq_of_getLsbD_eq
  intro i hi
  rw [rev32_bits _ _ hi]
  show (b3 ++ (b2 ++ (b1 ++ b0))).getLsbD _ = (b0 ++ (b1 ++ (b2 ++ b3))).getLsbD _
  simp only [getLsbD_cat]
  interval_cases i <;> rfl

theorem rev64_bv (b0 b1 b2 b3 b4 b5 b6 b7 : BitVec 8) :
    REVERSE64 ⟨b7 ++ (b6 ++ (b5 ++ (b4 ++ (b3 ++ (b2 ++ (b1 ++ b0))))))⟩
      = ⟨b0 ++ (b1 ++ (b2 ++ (b3 ++ (b4 ++ (b5 ++ (b6 ++ b7))))))⟩ := by
  apply UInt64.toBitVec_inj.mp
  apply BitVec.eq_of_getLsbD_eq
  intro i hi
  rw [rev64_bits _ _ hi]
  show (b7 ++ (b6 ++ (b5 ++ (b4 ++ (b3 ++ (b2 ++ (b1 ++ b0))))))).getLsbD _
    = (b0 ++ (b1 ++ (b2 ++ (b3 ++ (b4 ++ (b5 ++ (b6 ++ b7))))))).getLsbD _
  simp only [getLsbD_cat]
  interval_cases i <;> rfl

theorem toNat_append8 {n : Nat} (x : BitVec 8) (y : BitVec n) :
    (x ++ y).toNat = x.toNat * 2 ^ n + y.toNat := by
  rw [BitVec.toNat_append, ← Nat.shiftLeft_add_eq_or_of_lt y.isLt, Nat.shiftLeft_eq]

theorem ofNat32_bytes (b0 b1 b2 b3 : UInt8) :
    UInt32.ofNat (memNat [b0, b1, b2, b3])
      = ⟨b3.toBitVec ++ (b2.toBitVec ++ (b1.toBitVec ++ b0.toBitVec))⟩ := by
  apply UInt32.toNat_inj.mp
  have h0 := b0.toNat_lt; have h1 := b1.toNat_lt; have h2 := b2.toNat_lt; have h3 := b3.toNat_lt
  rw [UInt32.toNat_ofNat', ← UInt32.toNat_toBitVec, toNat_append8, toNat_append8, toNat_append8]
  simp only [memNat, UInt8.toNat_toBitVec]
  omega

theorem ofNat64_bytes (b0 b1 b2 b3 b4 b5 b6 b7 : UInt8) :
    UInt64.ofNat (memNat [b0, b1, b2, b3, b4, b5, b6, b7])
      = ⟨b7.toBitVec ++ (b6.toBitVec ++ (b5.toBitVec ++ (b4.toBitVec ++ (b3.toBitVec ++
          (b2.toBitVec ++ (b1.toBitVec ++ b0.toBitVec))))))⟩ := by
  apply UInt64.toNat_inj.mp
  have h0 := b0.toNat_lt; have h1 := b1.toNat_lt; have h2 := b2.toNat_lt; have h3 := b3.toNat_lt
  have h4 := b4.toNat_lt; have h5 := b5.toNat_lt; have h6 := b6.toNat_lt; have h7 := b7.toNat_lt
  rw [UInt64.toNat_ofNat', ← UInt64.toNat_toBitVec, toNat_append8, toNat_append8, toNat_append8,
    toNat_append8, toNat_append8, toNat_append8, toNat_append8]
  simp only [memNat, UInt8.toNat_toBitVec]
  omega

theorem list_len4 {l : Bytes} (h : l.length = 4) : ∃ a b c d, l = [a, b, c, d] := by
  match l, h with
  | [a, b, c, d], _ => exact ⟨a, b, c, d, rfl⟩

theorem list_len8 {l : Bytes} (h : l.length = 8) :
    ∃ a b c d e f g i, l = [a, b, c, d, e, f, g, i] := by
  match l, h with
  | [a, b, c, d, e, f, g, i], _ => exact ⟨a, b, c, d, e, f, g, i, rfl⟩

theorem rev32 (l : Bytes) (h : l.length = 4) :
    REVERSE32 (UInt32.ofNat (memNat l)) = UInt32.ofNat (memNat l.reverse) := by
  obtain ⟨a, b, c, d, rfl⟩ := list_len4 h
  show _ = UInt32.ofNat (memNat [d, c, b, a])
  rw [ofNat32_bytes, ofNat32_bytes, rev32_bv]

theorem rev64 (l : Bytes) (h : l.length = 8) :
    REVERSE64 (UInt64.ofNat (memNat l)) = UInt64.ofNat (memNat l.reverse) := by
  obtain ⟨a, b, c, d, e, f, g, i, rfl⟩ := list_len8 h
  show _ = UInt64.ofNat (memNat [i, g, f, e, d, c, b, a])
  rw [ofNat64_bytes, ofNat64_bytes, rev64_bv]

theorem memNat_append (x y : Bytes) : memNat (x ++ y) = memNat x + 256 ^ x.length * memNat y := by
  induction x with
  | nil => simp [memNat]
  | cons a x ih =>
    simp only [List.cons_append, memNat, ih, List.length_cons, Nat.pow_succ, Nat.mul_add]
    rw [Nat.mul_comm (256 ^ x.length) 256, Nat.mul_assoc, Nat.add_assoc]

theorem beNat_append (x : Bytes) (b : UInt8) : Spec.beNat (x ++ [b]) = Spec.beNat x * 256 + b.toNat := by
  simp [Spec.beNat]

theorem beNat_reverse (l : Bytes) : Spec.beNat l.reverse = memNat l := by
  induction l with
  | nil => rfl
  | cons b l ih =>
    rw [List.reverse_cons, beNat_append, ih, memNat]; omega

theorem beNat_eq (l : Bytes) : Spec.beNat l = memNat l.reverse := by
  rw [← beNat_reverse, List.reverse_reverse]

theorem memNat_leBytes (k n : Nat) : memNat (Spec.leBytes k n) = n % 256 ^ k := by
  induction k generalizing n with
  | zero => simp [Spec.leBytes, memNat, Nat.mod_one]
  | succ k ih =>
    simp only [Spec.leBytes, memNat, ih, UInt8.toNat_ofNat']
    rw [show (256 : Nat) ^ (k + 1) = 256 * 256 ^ k by rw [Nat.pow_succ, Nat.mul_comm], Nat.mod_mul]
    simp

theorem leBytes_memNat (l : Bytes) : Spec.leBytes l.length (memNat l) = l := by
  induction l with
  | nil => rfl
  | cons b l ih =>
    have := b.toNat_lt
    simp only [List.length_cons, Spec.leBytes, memNat]
    rw [show (b.toNat + 256 * memNat l) % 256 = b.toNat by omega,
      show (b.toNat + 256 * memNat l) / 256 = memNat l by omega, ih]
    simp

theorem memNat_lt (l : Bytes) : memNat l < 256 ^ l.length := by
  induction l with
  | nil => simp [memNat]
  | cons b l ih =>
    have := b.toNat_lt
    simp only [memNat, List.length_cons, Nat.pow_succ]; omega

theorem beNat_beBytes (k n : Nat) : Spec.beNat (Spec.beBytes k n) = n % 256 ^ k := by
  rw [beNat_eq, Spec.beBytes, List.reverse_reverse, memNat_leBytes]

theorem beBytes_beNat (l : Bytes) : Spec.beBytes l.length (Spec.beNat l) = l := by
  rw [beNat_eq, Spec.beBytes, ← List.length_reverse, leBytes_memNat, List.reverse_reverse]

theorem toMem32 (w : UInt32) : sha256Code.toMem w = Spec.leBytes 4 w.toNat := by
  have := w.toNat_lt
  simp only [sha256Code, Spec.leBytes, List.cons.injEq, and_true, ← UInt8.toNat_inj,
    UInt8.toNat_ofNat', UInt32.toNat_toUInt8, UInt32.toNat_shiftRight, Nat.shiftRight_eq_div_pow]
  refine ⟨?_, ?_, ?_, ?_⟩ <;>
    (try simp only [UInt32.reduceToNat, Nat.reduceMod, Nat.reducePow]) <;> omega

theorem toMem64 (w : UInt64) : sha512Code.toMem w = Spec.leBytes 8 w.toNat := by
  have := w.toNat_lt
  simp only [sha512Code, Spec.leBytes, List.cons.injEq, and_true, ← UInt8.toNat_inj,
    UInt8.toNat_ofNat', UInt64.toNat_toUInt8, UInt64.toNat_shiftRight, Nat.shiftRight_eq_div_pow]
  refine ⟨?_, ?_, ?_, ?_, ?_, ?_, ?_, ?_⟩ <;>
    (try simp only [UInt64.reduceToNat, Nat.reduceMod, Nat.reducePow]) <;> omega

theorem k256_table : ∀ j < 64, K256.getD j 0 = Spec.sha256P.k j := by decide +kernel
theorem k512_table : ∀ j < 80, K512.getD j 0 = Spec.sha512P.k j := by decide +kernel
theorem iv256_table : sha256Code.iv = Spec.sha256P.h0.toList := by decide +kernel
theorem iv512_table : sha512Code.iv = Spec.sha512P.h0.toList := by decide +kernel

theorem sha256Ok : Sha2Ok sha256Code Spec.sha256P where
  dflt := rfl
  add_comm := UInt32.add_comm
  add_assoc := UInt32.add_assoc
  wlen := rfl
  wpos := by decide
  rounds := rfl
  rounds16 := by decide
  bigS0 := rfl
  bigS1 := rfl
  smS0 := rfl
  smS1 := rfl
  ch := rfl
  maj := rfl
  k := k256_table
  iv := iv256_table
  load bs h := by
    show REVERSE32 (UInt32.ofNat (memNat bs)) = UInt32.ofNat (Spec.beNat bs)
    rw [rev32 bs h, beNat_eq]
  save w := by
    rw [toMem32]
    show Spec.leBytes 4 (REVERSE32 w).toNat = Spec.beBytes 4 w.toNat
    have e : w = UInt32.ofNat (memNat (Spec.leBytes 4 w.toNat)) := by
      rw [memNat_leBytes, Nat.mod_eq_of_lt (show w.toNat < 256 ^ 4 from w.toNat_lt), UInt32.ofNat_toNat]
    conv_lhs => rw [e, rev32 _ (Spec.length_leBytes _ _)]
    have hlt := memNat_lt (Spec.leBytes 4 w.toNat).reverse
    rw [List.length_reverse, Spec.length_leBytes] at hlt
    rw [UInt32.toNat_ofNat', Nat.mod_eq_of_lt (show _ < 2 ^ 32 from hlt)]
    have := leBytes_memNat (Spec.leBytes 4 w.toNat).reverse
    rw [List.length_reverse, Spec.length_leBytes] at this
    exact this
  toMem_length w := rfl
  word_rt w := by
    show UInt32.ofNat (Spec.beNat (Spec.beBytes 4 w.toNat)) = w
    rw [beNat_beBytes, Nat.mod_eq_of_lt (show w.toNat < 256 ^ 4 from w.toNat_lt), UInt32.ofNat_toNat]

theorem sha512Ok : Sha2Ok sha512Code Spec.sha512P where
  dflt := rfl
  add_comm := UInt64.add_comm
  add_assoc := UInt64.add_assoc
  wlen := rfl
  wpos := by decide
  rounds := rfl
  rounds16 := by decide
  bigS0 := rfl
  bigS1 := rfl
  smS0 := rfl
  smS1 := rfl
  ch := rfl
  maj := rfl
  k := k512_table
  iv := iv512_table
  load bs h := by
    show REVERSE64 (UInt64.ofNat (memNat bs)) = UInt64.ofNat (Spec.beNat bs)
    rw [rev64 bs h, beNat_eq]
  save w := by
    rw [toMem64]
    show Spec.leBytes 8 (REVERSE64 w).toNat = Spec.beBytes 8 w.toNat
    have e : w = UInt64.ofNat (memNat (Spec.leBytes 8 w.toNat)) := by
      rw [memNat_leBytes, Nat.mod_eq_of_lt (show w.toNat < 256 ^ 8 from w.toNat_lt), UInt64.ofNat_toNat]
    conv_lhs => rw [e, rev64 _ (Spec.length_leBytes _ _)]
    have hlt := memNat_lt (Spec.leBytes 8 w.toNat).reverse
    rw [List.length_reverse, Spec.length_leBytes] at hlt
    rw [UInt64.toNat_ofNat', Nat.mod_eq_of_lt (show _ < 2 ^ 64 from hlt)]
    have := leBytes_memNat (Spec.leBytes 8 w.toNat).reverse
    rw [List.length_reverse, Spec.length_leBytes] at this
    exact this
  toMem_length w := rfl
  word_rt w := by
    show UInt64.ofNat (Spec.beNat (Spec.beBytes 8 w.toNat)) = w
    rw [beNat_beBytes, Nat.mod_eq_of_lt (show w.toNat < 256 ^ 8 from w.toNat_lt), UInt64.ofNat_toNat]

theorem leBytes_add (a b n : Nat) :
    Spec.leBytes (a + b) n = Spec.leBytes a n ++ Spec.leBytes b (n / 256 ^ a) := by
  induction a generalizing n with
  | zero => simp [Spec.leBytes]
  | succ a ih =>
    rw [show a + 1 + b = (a + b) + 1 by omega, Spec.leBytes, Spec.leBytes, ih, List.cons_append,
      Nat.div_div_eq_div_mul, Nat.pow_succ, Nat.mul_comm 256]

theorem leBytes_mod (k n : Nat) : Spec.leBytes k (n % 256 ^ k) = Spec.leBytes k n := by
  have := leBytes_memNat (Spec.leBytes k n)
  rwa [memNat_leBytes, Spec.length_leBytes] at this

theorem beBytes_add (a b n : Nat) :
    Spec.beBytes (a + b) n = Spec.beBytes b (n / 256 ^ a) ++ Spec.beBytes a n := by
  simp [Spec.beBytes, leBytes_add]

theorem shl3_toNat (k : Nat) (h : k < 2 ^ 61) : (Sha2Code.shl3 k).toNat = 8 * k := by
  simp only [Sha2Code.shl3, UInt64.toNat_shiftLeft, UInt64.toNat_ofNat', Nat.shiftLeft_eq,
    UInt64.reduceToNat, Nat.reduceMod]
  omega

theorem sha256Count : Sha2Count sha256Code Spec.sha256P (fun b n => b.toNat = 8 * n) where
  zero := rfl
  add b n k h hl := by
    show (b + _).toNat = _
    rw [UInt64.toNat_add, shl3_toNat k (by omega), h]
    omega
  used b n h hl := by
    show (b >>> 3).toNat % 64 = n % 64
    rw [UInt64.toNat_shiftRight, h, Nat.shiftRight_eq_div_pow]
    simp only [UInt64.reduceToNat, Nat.reduceMod]
    omega
  len b n h hl := by
    show Spec.beBytes 4 ((b >>> 32).toUInt32).toNat ++ Spec.beBytes 4 ((b &&& 0xffffffff).toUInt32).toNat
      = Spec.beBytes (4 + 4) (8 * n)
    rw [beBytes_add, UInt64.toNat_toUInt32, UInt64.toNat_toUInt32, UInt64.toNat_shiftRight,
      UInt64.toNat_and, h, Nat.shiftRight_eq_div_pow]
    have e : 8 * n &&& (0xffffffff : UInt64).toNat = 8 * n % 2 ^ 32 :=
      Nat.and_two_pow_sub_one_eq_mod (8 * n) 32
    rw [e, Nat.mod_mod]
    congr 1
    · simp only [Spec.beBytes]
      exact congrArg List.reverse (leBytes_mod 4 _)
    · simp only [Spec.beBytes]
      exact congrArg List.reverse (leBytes_mod 4 _)

theorem sha512Count : Sha2Count sha512Code Spec.sha512P (fun b n => b.1.toNat = 8 * n ∧ b.2 = 0) where
  zero := ⟨rfl, rfl⟩
  add b n k h hl := by
    have h1 : (b.1 + Sha2Code.shl3 k).toNat = 8 * (n + k) := by
      rw [UInt64.toNat_add, shl3_toNat k (by omega), h.1]
      omega
    refine ⟨h1, ?_⟩
    show (if b.1 + Sha2Code.shl3 k < Sha2Code.shl3 k then b.2 + 1 else b.2) = 0
    rw [if_neg, h.2]
    rw [UInt64.lt_iff_toNat_lt, h1, shl3_toNat k (by omega)]
    omega
  used b n h hl := by
    show (b.1 >>> 3).toNat % 128 = n % 128
    rw [UInt64.toNat_shiftRight, h.1, Nat.shiftRight_eq_div_pow]
    simp only [UInt64.reduceToNat, Nat.reduceMod]
    omega
  len b n h hl := by
    show Spec.beBytes 8 b.2.toNat ++ Spec.beBytes 8 b.1.toNat = Spec.beBytes (8 + 8) (8 * n)
    rw [beBytes_add, h.1, h.2, Nat.div_eq_of_lt (by omega)]
    rfl

end UB
