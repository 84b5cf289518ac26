import Mathlib.Tactic.Ring
import Verif.Model.Conversion
import Verif.Spec.Conversion
import Verif.Lemmas.Bytes

namespace UB
open Spec

theorem binChars8_eq (b : UInt8) : binChars8 b = bitText (bits8 b) := by
  revert b; apply forall_byte; decide +kernel

theorem bitText_append (a b : List Bool) : bitText (a ++ b) = bitText a ++ bitText b := by
  simp [bitText]

theorem toBin_chars (a : Bytes) : a.flatMap binChars8 = bitText (a.flatMap bits8) := by
  induction a with
  | nil => rfl
  | cons b bs ih => simp only [List.flatMap_cons, ih, binChars8_eq, bitText_append]

theorem foldl_bits (l : List Bool) (a : Nat) :
    l.foldl (fun acc x => 2 * acc + x.toNat) a = a * 2 ^ l.length + bitsValue l := by
  induction l generalizing a with
  | nil => simp [bitsValue]
  | cons x xs ih =>
    simp only [List.foldl_cons, List.length_cons, bitsValue]
    rw [ih, ih (2 * 0 + x.toNat), Nat.pow_succ]
    ring

theorem bitsValue_append (a b : List Bool) :
    bitsValue (a ++ b) = bitsValue a * 2 ^ b.length + bitsValue b := by
  rw [bitsValue, List.foldl_append, foldl_bits]; rfl

theorem bitsValue_cons (x : Bool) (b : List Bool) :
    bitsValue (x :: b) = x.toNat * 2 ^ b.length + bitsValue b := by
  have := bitsValue_append [x] b
  simpa [bitsValue] using this

theorem bitsValue_lt (l : List Bool) : bitsValue l < 2 ^ l.length := by
  induction l with
  | nil => simp [bitsValue]
  | cons x xs ih =>
    rw [bitsValue_cons, List.length_cons, Nat.pow_succ]
    cases x <;> simp <;> omega

theorem bitsValue_bits8 (b : UInt8) : bitsValue (bits8 b) = b.toNat := by
  revert b; apply forall_byte; decide +kernel

theorem length_bits8 (b : UInt8) : (bits8 b).length = 8 := rfl

theorem bitsValue_bytes (a : Bytes) : bitsValue (a.flatMap bits8) = beValue a ∧
    (a.flatMap bits8).length = 8 * a.length := by
  induction a with
  | nil => exact ⟨rfl, rfl⟩
  | cons b bs ih =>
    obtain ⟨h1, h2⟩ := ih
    refine ⟨?_, ?_⟩
    · rw [List.flatMap_cons, bitsValue_append, bitsValue_bits8, h1, h2, beValue_cons]
      rw [show (256 : Nat) = 2 ^ 8 from rfl, ← Nat.pow_mul]
    · simp [h2, length_bits8]; omega

theorem or_bit (b e : Nat) (h : b < 2 ^ e) (he : e < 8) :
    (UInt8.ofNat b ||| UInt8.ofNat (1 <<< e)).toNat = b + 2 ^ e := by
  have : ∀ e < 8, ∀ b < 2 ^ e, (UInt8.ofNat b ||| UInt8.ofNat (1 <<< e)).toNat = b + 2 ^ e := by
    decide +kernel
  exact this e he b h

/-- Setting bit `8*n+e` of a big-endian string whose value is below it adds `2^(8n+e)`. -/
theorem beValue_setBit (l : Bytes) (n e : Nat) (hn : n < l.length) (he : e < 8)
    (hv : beValue l < 2 ^ (8 * n + e)) :
    beValue (l.set (l.length - n - 1)
      ((l.getD (l.length - n - 1) 0) ||| UInt8.ofNat (1 <<< e))) = beValue l + 2 ^ (8 * n + e) := by
  generalize hk : l.length - n - 1 = k
  have hkl : k < l.length := by omega
  have hdl : (l.drop (k + 1)).length = n := by simp; omega
  have hsplit : l = l.take k ++ (l[k] :: l.drop (k + 1)) := by simp
  have hset : ∀ v, l.set k v = l.take k ++ (v :: l.drop (k + 1)) := by
    intro v; rw [List.set_eq_take_append_cons_drop, if_pos hkl]
  have hget : l.getD k 0 = l[k] := by simp [List.getD, hkl]
  have hpow : 2 ^ (8 * n + e) = 2 ^ e * 256 ^ n := by
    rw [Nat.pow_add, show (256 : Nat) = 2 ^ 8 from rfl, ← Nat.pow_mul, Nat.mul_comm]
  have hval : beValue l = beValue (l.take k) * 256 ^ (n + 1) + (l[k].toNat * 256 ^ n + beValue (l.drop (k + 1))) := by
    conv => lhs; rw [hsplit]
    rw [beValue_append, beValue_cons, hdl, List.length_cons, hdl]
  have hb : l[k].toNat < 2 ^ e := by
    rw [hpow] at hv
    have : l[k].toNat * 256 ^ n < 2 ^ e * 256 ^ n := by omega
    exact Nat.lt_of_mul_lt_mul_right this
  rw [hset, hget, hval, beValue_append, beValue_cons, hdl, List.length_cons, hdl]
  have hor := or_bit l[k].toNat e hb he
  rw [UInt8.ofNat_toNat] at hor
  rw [hor, hpow, Nat.add_mul]
  omega

theorem fromBinLoop_good (len : Nat) : ∀ (bs : List Bool) (i : Nat) (l tail : Bytes),
    l.length = len → i + bs.length ≤ 8 * len → len ≤ 256 → beValue l < 2 ^ i →
    ∃ l' : Bytes, fromBinLoop len (bitText bs) i (l ++ tail) = (true, l' ++ tail) ∧ l'.length = len ∧
      beValue l' = beValue l + 2 ^ i * bitsValue bs.reverse := by
  intro bs
  induction bs with
  | nil => intro i l tail hl _ _ _; exact ⟨l, by simp [bitText, fromBinLoop], hl, by simp [bitsValue]⟩
  | cons x xs ih =>
    intro i l tail hl hi hlen hv
    have hi8 : i / 8 < len := by simp at hi; omega
    have hn : (UInt8.ofNat (i / 8)).toNat = i / 8 := by
      simp; omega
    have hrev : bitsValue (x :: xs).reverse = 2 * bitsValue xs.reverse + x.toNat := by
      rw [List.reverse_cons, bitsValue_append]; simp [bitsValue]; omega
    have e8 : 8 * (i / 8) + i % 8 = i := by omega
    cases x with
    | false =>
      obtain ⟨l', h1, h2, h3⟩ := ih (i + 1) l tail hl (by simp at hi; omega) hlen
        (Nat.lt_trans hv (by rw [Nat.pow_succ]; have := Nat.two_pow_pos i; omega))
      refine ⟨l', ?_, h2, ?_⟩
      · rw [← h1]
        show fromBinLoop len (48 :: bitText xs) i (l ++ tail) = _
        rw [fromBinLoop]; simp
      · rw [h3, hrev, Nat.pow_succ]; simp; rw [← Nat.mul_assoc]
    | true =>
      have hset := beValue_setBit l (i / 8) (i % 8) (by omega) (by omega) (by rw [e8]; exact hv)
      rw [e8, hl] at hset
      have hkl : len - i / 8 - 1 < l.length := by omega
      obtain ⟨l', h1, h2, h3⟩ := ih (i + 1)
        (l.set (len - i / 8 - 1) ((l.getD (len - i / 8 - 1) 0) ||| UInt8.ofNat (1 <<< (i % 8)))) tail
        (by simpa using hl) (by simp at hi; omega) hlen (by rw [hset, Nat.pow_succ]; omega)
      refine ⟨l', ?_, h2, ?_⟩
      · rw [← h1]
        show fromBinLoop len (49 :: bitText xs) i (l ++ tail) = _
        rw [fromBinLoop]
        simp only [hn, beq_self_eq_true, if_true]
        congr 1
        rw [List.set_append_left _ _ hkl]
        congr 2
        simp [List.getD, List.getElem?_append, hkl]
      · rw [h3, hset, hrev, Nat.pow_succ]
        simp only [Bool.toNat_true, Nat.mul_add, Nat.mul_one, Nat.mul_assoc]
        omega

theorem fromBinLoop_bad (len : Nat) : ∀ (t : Bytes) (i : Nat) (arr : Bytes),
    (∃ c ∈ t, c ≠ 48 ∧ c ≠ 49) → (fromBinLoop len t i arr).1 = false := by
  intro t
  induction t with
  | nil => intro i arr h; simp at h
  | cons c cs ih =>
    intro i arr h
    rw [fromBinLoop]
    by_cases h1 : c = 49
    · subst h1
      simp only [beq_self_eq_true, if_true]
      apply ih
      obtain ⟨d, hd, hne⟩ := h
      rcases List.mem_cons.mp hd with rfl | hd
      · exact absurd rfl hne.2
      · exact ⟨d, hd, hne⟩
    · by_cases h0 : c = 48
      · subst h0
        simp only [show ((48 : UInt8) == 49) = false from rfl, Bool.false_eq_true, if_false,
          beq_self_eq_true, if_true]
        apply ih
        obtain ⟨d, hd, hne⟩ := h
        rcases List.mem_cons.mp hd with rfl | hd
        · exact absurd rfl hne.1
        · exact ⟨d, hd, hne⟩
      · simp [h0, h1]

end UB
