import Verif.Model.Base
import Verif.Spec.Conversion

/-
General lemmas about bytes and lists.
-/

namespace UB

theorem forall_byte {P : UInt8 → Prop} (h : ∀ n < 256, P (UInt8.ofNat n)) (c : UInt8) : P c := by
  have := h c.toNat c.toNat_lt
  simpa using this

theorem ofNat_toNat8 (c : UInt8) : UInt8.ofNat c.toNat = c := by simp

theorem zeros_succ (n : Nat) : zeros (n + 1) = 0 :: zeros n := rfl

theorem drop_zeros (n k : Nat) : (zeros n).drop k = zeros (n - k) := by simp [zeros]

theorem take_zeros (n k : Nat) : (zeros n).take k = zeros (min k n) := by simp [zeros]

namespace Spec

theorem beValue_nil : beValue [] = 0 := rfl

theorem foldl_beValue (b : Bytes) (a : Nat) :
    b.foldl (fun acc x => acc * 256 + x.toNat) a = a * 256 ^ b.length + beValue b := by
  induction b generalizing a with
  | nil => simp [beValue]
  | cons x xs ih =>
    simp only [List.foldl_cons, List.length_cons, beValue]
    rw [ih, ih (0 * 256 + x.toNat), Nat.pow_succ]
    simp [Nat.add_mul, Nat.mul_assoc, Nat.mul_comm 256]
    omega

theorem beValue_cons (x : UInt8) (xs : Bytes) :
    beValue (x :: xs) = x.toNat * 256 ^ xs.length + beValue xs := by
  simp only [beValue, List.foldl_cons]
  rw [foldl_beValue]
  simp [beValue]

theorem beValue_append (a b : Bytes) :
    beValue (a ++ b) = beValue a * 256 ^ b.length + beValue b := by
  rw [beValue, List.foldl_append, foldl_beValue]; rfl

theorem beValue_snoc (a : Bytes) (x : UInt8) :
    beValue (a ++ [x]) = beValue a * 256 + x.toNat := by
  rw [beValue_append]; simp [beValue]

theorem beValue_lt (b : Bytes) : beValue b < 256 ^ b.length := by
  induction b with
  | nil => simp [beValue]
  | cons x xs ih =>
    rw [beValue_cons, List.length_cons, Nat.pow_succ]
    have := x.toNat_lt
    have h : x.toNat * 256 ^ xs.length + 256 ^ xs.length ≤ 256 ^ xs.length * 256 := by
      rw [← Nat.succ_mul, Nat.mul_comm]
      exact Nat.mul_le_mul_left _ (by omega)
    omega

theorem leValue_cons (x : UInt8) (xs : Bytes) :
    leValue (x :: xs) = x.toNat + 256 * leValue xs := by
  simp [leValue, beValue_snoc]; omega

theorem leValue_nil : leValue [] = 0 := rfl

theorem leValue_lt (b : Bytes) : leValue b < 256 ^ b.length := by
  have := beValue_lt b.reverse
  simpa [leValue] using this

/-- Byte strings of equal length and equal little-endian value are equal. -/
theorem leValue_inj : ∀ {a b : Bytes}, a.length = b.length → leValue a = leValue b → a = b
  | [], [], _, _ => rfl
  | x :: xs, y :: ys, hl, hv => by
    rw [leValue_cons, leValue_cons] at hv
    have hx := x.toNat_lt
    have hy := y.toNat_lt
    have h1 : x.toNat = y.toNat := by omega
    have h2 : leValue xs = leValue ys := by omega
    have := leValue_inj (by simpa using hl) h2
    rw [this, UInt8.toNat_inj.mp h1]

theorem beValue_inj {a b : Bytes} (hl : a.length = b.length) (hv : beValue a = beValue b) : a = b := by
  have := @leValue_inj a.reverse b.reverse (by simpa using hl) (by simpa [leValue] using hv)
  simpa using congrArg List.reverse this

theorem beValue_zeros (n : Nat) : beValue (zeros n) = 0 := by
  induction n with
  | zero => rfl
  | succ n ih => rw [zeros_succ, beValue_cons, ih]; simp

end Spec

end UB
