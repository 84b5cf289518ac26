import Verif.Model.BignumInverse
import Verif.Lemmas.BignumIO
import Mathlib.Data.Nat.GCD.Basic

namespace UB
open Spec
namespace BN

/-! ### Words -/

theorem wordValue_append (a b : List UInt32) : wordValue (a ++ b) = wordValue a + 2 ^ (32 * a.length) * wordValue b := by
  induction a with
  | nil => simp [wordValue]
  | cons x xs ih =>
    simp only [List.cons_append, wordValue, ih, List.length_cons]
    rw [Nat.mul_add 32, Nat.pow_add]
    ring

theorem wordValue_singleton (x : UInt32) : wordValue [x] = x.toNat := by simp [wordValue]

/-- Value of a list of words, highest first. -/
theorem wordValue_reverse_cons (x : UInt32) (l : List UInt32) :
    wordValue (x :: l).reverse = wordValue l.reverse + 2 ^ (32 * l.length) * x.toNat := by
  rw [List.reverse_cons, wordValue_append, wordValue_singleton, List.length_reverse]

theorem packLoop_spec (temp : UInt32) (i : Nat) (vs : List UInt32) (hi : i + vs.length = 8) (ht : temp.toNat < 2 ^ (30 - 2 * i))
    (hs : ∀ v ∈ vs, v.toNat < 2 ^ 30) :
    (packLoop temp i vs).length = vs.length ∧
      ∃ q, wordValue (packLoop temp i vs) + 2 ^ (32 * vs.length) * q = temp.toNat + 2 ^ (30 - 2 * i) * limbValue vs := by
  induction vs generalizing temp i with
  | nil => exact ⟨rfl, temp.toNat, by simp [packLoop, wordValue, limbValue]⟩
  | cons v vs ih =>
    simp only [List.length_cons] at hi
    have hv := hs v (by simp)
    have e1 : (v >>> (2 + 2 * i).toUInt32).toNat = v.toNat / 2 ^ (2 + 2 * i) := toNat_shr _ _ (by omega)
    have hlt : v.toNat / 2 ^ (2 + 2 * i) < 2 ^ (30 - 2 * (i + 1)) := by
      rw [Nat.div_lt_iff_lt_mul (by positivity), ← Nat.pow_add, show 30 - 2 * (i + 1) + (2 + 2 * i) = 30 by omega]
      exact hv
    obtain ⟨h1, q, h2⟩ := ih (v >>> (2 + 2 * i).toUInt32) (i + 1) (by omega) (by rw [e1]; exact hlt)
      fun z hz => hs z (List.mem_cons_of_mem _ hz)
    refine ⟨by rw [packLoop, List.length_cons, h1, List.length_cons], q, ?_⟩
    have e2 : (temp ||| (v <<< (30 - 2 * i).toUInt32)).toNat = temp.toNat + v.toNat % 2 ^ (2 + 2 * i) * 2 ^ (30 - 2 * i) := by
      rw [UInt32.toNat_or, toNat_shl _ _ (by omega)]
      have hm : v.toNat * 2 ^ (30 - 2 * i) % 2 ^ 32 = v.toNat % 2 ^ (2 + 2 * i) * 2 ^ (30 - 2 * i) := by
        rw [show (2 : Nat) ^ 32 = 2 ^ (2 + 2 * i) * 2 ^ (30 - 2 * i) by rw [← Nat.pow_add]; congr 1; omega]
        exact Nat.mul_mod_mul_right ..
      rw [hm, Nat.or_comm, or_add _ _ _ ht (Nat.mul_mod_left _ _), Nat.add_comm]
    simp only [packLoop, wordValue, limbValue, List.length_cons, e2]
    rw [e1] at h2
    have hd := Nat.div_add_mod v.toNat (2 ^ (2 + 2 * i))
    have p1 : 2 ^ (30 - 2 * i) * 2 ^ (2 + 2 * i) = 2 ^ 32 := by rw [← Nat.pow_add]; congr 1; omega
    have p2 : (2 : Nat) ^ 32 * 2 ^ (30 - 2 * (i + 1)) = 2 ^ (30 - 2 * i) * 2 ^ 30 := by rw [← Nat.pow_add, ← Nat.pow_add]; congr 1; omega
    have h3 : 2 ^ 32 * wordValue (packLoop (v >>> (2 + 2 * i).toUInt32) (i + 1) vs) + 2 ^ (32 * (vs.length + 1)) * q =
        2 ^ 32 * (v.toNat / 2 ^ (2 + 2 * i)) + 2 ^ (30 - 2 * i) * 2 ^ 30 * limbValue vs := by
      rw [← p2, Nat.mul_assoc, ← Nat.mul_add, ← h2, show 32 * (vs.length + 1) = 32 + 32 * vs.length by ring, Nat.pow_add]
      ring
    have h4 : temp.toNat + v.toNat % 2 ^ (2 + 2 * i) * 2 ^ (30 - 2 * i) + 2 ^ 32 * (v.toNat / 2 ^ (2 + 2 * i)) = temp.toNat + 2 ^ (30 - 2 * i) * v.toNat := by
      rw [← p1]
      conv_rhs => rw [← hd]
      ring
    rw [Nat.add_assoc, h3, ← Nat.add_assoc, h4]
    ring

theorem pack_spec (x : BN) (hx : Normal x) (hv : limbValue x < 2 ^ 256) : (pack x).length = 8 ∧ wordValue (pack x) = limbValue x := by
  obtain ⟨hl, hs⟩ := hx
  cases x with
  | nil => simp at hl
  | cons v vs =>
    simp only [List.length_cons] at hl
    obtain ⟨h1, q, h2⟩ := packLoop_spec v 0 vs (by omega) (hs v (by simp)) fun z hz => hs z (List.mem_cons_of_mem _ hz)
    have hlt := wordValue_lt (packLoop v 0 vs)
    rw [h1, show vs.length = 8 by omega] at hlt
    rw [show vs.length = 8 by omega] at h1 h2
    refine ⟨h1, ?_⟩
    simp only [pack, limbValue] at hv h2 ⊢
    omega

/-- First part of a combination register. -/
def Combo.first (c : Combo) : Nat := wordValue (c.a.take c.len1)

/-- Second part of a combination register. -/
def Combo.second (c : Combo) : Nat := wordValue (c.a.drop c.len1).reverse

theorem take_succ_word (a : List UInt32) (n : Nat) (h : n < a.length) :
    wordValue (a.take (n + 1)) = wordValue (a.take n) + 2 ^ (32 * n) * (a.getD n 0).toNat := by
  rw [List.take_succ, List.getElem?_eq_getElem h, Option.toList_some, wordValue_append, wordValue_singleton, List.length_take,
    Nat.min_eq_left (by omega)]
  simp [List.getD, List.getElem?_eq_getElem h]

theorem drop_word (a : List UInt32) (n : Nat) (h : n < a.length) : a.drop n = a.getD n 0 :: a.drop (n + 1) := by
  rw [List.drop_eq_getElem_cons h]
  simp [List.getD, List.getElem?_eq_getElem h]

theorem wordValue_take_lt (a : List UInt32) (n : Nat) (h : n ≤ a.length) : wordValue (a.take n) < 2 ^ (32 * n) := by
  have := wordValue_lt (a.take n)
  rwa [List.length_take, Nat.min_eq_left h] at this

theorem toNat_ne_zero {w : UInt32} (h : w ≠ 0) : 1 ≤ w.toNat := by
  rcases Nat.eq_zero_or_pos w.toNat with h' | h'
  · exact absurd (UInt32.toNat_inj.mp h') h
  · exact h'

theorem trimLen_spec (a : List UInt32) (n : Nat) (hn : n ≤ a.length) (h : wordValue (a.take n) ≠ 0) :
    ∃ m, trimLen a n = .ok m ∧ 1 ≤ m ∧ m ≤ n ∧ wordValue (a.take m) = wordValue (a.take n) ∧
      wordValue (a.drop m).reverse = wordValue (a.drop n).reverse ∧ 2 ^ (32 * (m - 1)) ≤ wordValue (a.take m) := by
  induction n with
  | zero => simp [wordValue] at h
  | succ n ih =>
    have ht := take_succ_word a n (by omega)
    by_cases c : a.getD n 0 = 0
    · simp only [c, UInt32.toNat_zero, Nat.mul_zero, Nat.add_zero] at ht
      obtain ⟨m, h1, h2, h3, h4, h5, h6⟩ := ih (by omega) (by rwa [ht] at h)
      refine ⟨m, ?_, h2, by omega, by rw [h4, ht], ?_, h6⟩
      · rw [trimLen, c]; exact h1
      · rw [h5, drop_word a n (by omega), wordValue_reverse_cons, c, UInt32.toNat_zero, Nat.mul_zero, Nat.add_zero]
    · refine ⟨n + 1, ?_, by omega, by omega, rfl, rfl, ?_⟩
      · rw [trimLen, if_neg (by rw [beq_iff_eq]; exact c)]
      · rw [ht, Nat.add_sub_cancel]
        have := Nat.mul_le_mul_left (2 ^ (32 * n)) (toNat_ne_zero c)
        omega

theorem shiftWords_spec (n : Nat) : ∀ (a : List UInt32) (k : Nat), n ≤ a.length → wordValue (a.take n) ≠ 0 →
    2 ^ (32 * (n - 1)) ≤ wordValue (a.take n) →
    ∃ a' m t, shiftWords a n k = .ok (a', m, k + t) ∧ a'.length = a.length ∧ 1 ≤ m ∧ m ≤ n ∧
      wordValue (a.take n) = 2 ^ t * wordValue (a'.take m) ∧ wordValue (a'.drop m).reverse = 2 ^ t * wordValue (a.drop n).reverse ∧
      a'.headD 0 ≠ 0 ∧ 2 ^ (32 * (m - 1)) ≤ wordValue (a'.take m) := by
  induction n with
  | zero => intro a k _ h; simp [wordValue] at h
  | succ n ih =>
    intro a k hl h ht
    cases a with
    | nil => simp at hl
    | cons x as =>
      simp only [List.length_cons] at hl
      by_cases c : x = 0
      · subst c
        have e1 : wordValue ((0 :: as).take (n + 1)) = 2 ^ 32 * wordValue (as.take n) := by
          simp [wordValue]
        have e2 : (as ++ [0]).take n = as.take n := List.take_append_of_le_length (by omega)
        have e3 : wordValue ((as ++ [0]).drop n).reverse = 2 ^ 32 * wordValue ((0 :: as).drop (n + 1)).reverse := by
          rw [List.drop_append_of_le_length (by omega), List.reverse_append]
          simp [wordValue]
        rw [e1] at h ht
        have hn : n ≠ 0 := by
          rintro rfl
          simp [wordValue] at h
        have ht' : 2 ^ (32 * (n - 1)) ≤ wordValue ((as ++ [0]).take n) := by
          rw [e2]
          rw [show 32 * (n + 1 - 1) = 32 + 32 * (n - 1) by omega, Nat.pow_add] at ht
          exact Nat.le_of_mul_le_mul_left ht (by positivity)
        obtain ⟨a', m, t, h1, h2, h3, h4, h5, h6, h7, h8⟩ := ih (as ++ [0]) (k + 32) (by simp; omega) (by rw [e2]; intro c; rw [c] at h; simp at h) ht'
        refine ⟨a', m, 32 + t, ?_, ?_, h3, by omega, ?_, ?_, h7, h8⟩
        · rw [shiftWords]
          simp only [List.headD_cons, BEq.rfl, if_true, List.drop_succ_cons, List.drop_zero]
          rw [h1, Nat.add_assoc]
        · rw [h2]; simp
        · rw [e1, ← e2, h5, Nat.pow_add, Nat.mul_assoc]
        · rw [h6, e3, Nat.pow_add]; ring
      · refine ⟨x :: as, n + 1, 0, ?_, rfl, by omega, by omega, by simp, by simp, by simpa using c, ht⟩
        rw [shiftWords]
        simp [c]

theorem lowZeros_spec (w : UInt32) (fuel : Nat) : ∀ j, fuel + j = 32 → w ≠ 0 → 2 ^ j ∣ w.toNat →
    ∃ i, lowZeros w fuel j = .ok i ∧ i < 32 ∧ 2 ^ i ∣ w.toNat ∧ w.toNat / 2 ^ i % 2 = 1 := by
  induction fuel with
  | zero =>
    intro j hj h0 hd
    have := Nat.le_of_dvd (toNat_ne_zero h0) hd
    have := w.toNat_lt
    rw [show j = 32 by omega] at *
    omega
  | succ fuel ih =>
    intro j hj h0 hd
    have e : (w &&& ((1 : UInt32) <<< j.toUInt32)) = 0 ↔ w.toNat / 2 ^ j % 2 = 0 := by
      rw [← UInt32.toNat_inj, UInt32.toNat_and, toNat_shl _ _ (by omega), UInt32.toNat_one, Nat.one_mul,
        Nat.mod_eq_of_lt (Nat.pow_lt_pow_right (by norm_num) (by omega)), UInt32.toNat_zero]
      constructor
      · intro h
        have := congrArg (Nat.testBit · j) h
        simp only [Nat.testBit_and, Nat.testBit_two_pow_self, Bool.and_true, Nat.zero_testBit] at this
        rw [Nat.testBit_eq_decide_div_mod_eq, decide_eq_false_iff_not] at this
        omega
      · intro h
        apply Nat.eq_of_testBit_eq
        intro i
        simp only [Nat.testBit_and, Nat.testBit_two_pow, Nat.zero_testBit]
        by_cases hij : j = i
        · subst hij
          rw [Nat.testBit_eq_decide_div_mod_eq]
          simp [h]
        · simp [hij]
    by_cases c : w.toNat / 2 ^ j % 2 = 1
    · refine ⟨j, ?_, by omega, hd, c⟩
      have : ¬ (w &&& ((1 : UInt32) <<< j.toUInt32)) = 0 := by rw [e]; omega
      rw [lowZeros, if_neg (by rw [beq_iff_eq]; exact this)]
    · have : (w &&& ((1 : UInt32) <<< j.toUInt32)) = 0 := by rw [e]; omega
      rw [lowZeros, this]
      simp only [BEq.rfl, if_true]
      apply ih (j + 1) (by omega) h0
      obtain ⟨m, hm⟩ := hd
      rw [hm, Nat.mul_div_cancel_left _ (by positivity)] at c
      rw [hm, Nat.pow_succ]
      exact Nat.mul_dvd_mul_left _ (by omega)

theorem shrWords_spec (j : Nat) (hj : 0 < j) (hj' : j < 32) (l : List UInt32) :
    (shrWords j l).length = l.length ∧ wordValue (shrWords j l) = wordValue l / 2 ^ j := by
  induction l with
  | nil => simp [shrWords, wordValue]
  | cons x xs ih =>
    cases xs with
    | nil => simp [shrWords, wordValue, toNat_shr x j hj']
    | cons y ys =>
      obtain ⟨h1, h2⟩ := ih
      refine ⟨by simp [shrWords] at h1 ⊢; exact h1, ?_⟩
      have hx := x.toNat_lt
      have e : ((x >>> j.toUInt32) ||| (y <<< (32 - j).toUInt32)).toNat = x.toNat / 2 ^ j + y.toNat % 2 ^ j * 2 ^ (32 - j) := by
        rw [UInt32.toNat_or, toNat_shr _ _ hj', toNat_shl _ _ (by omega)]
        have hm : y.toNat * 2 ^ (32 - j) % 2 ^ 32 = y.toNat % 2 ^ j * 2 ^ (32 - j) := by
          rw [show (2 : Nat) ^ 32 = 2 ^ j * 2 ^ (32 - j) by rw [← Nat.pow_add]; congr 1; omega]
          exact Nat.mul_mod_mul_right ..
        have hlt : x.toNat / 2 ^ j < 2 ^ (32 - j) := by
          rw [Nat.div_lt_iff_lt_mul (by positivity), ← Nat.pow_add, show 32 - j + j = 32 by omega]
          exact hx
        rw [hm, Nat.or_comm, or_add _ _ _ hlt (Nat.mul_mod_left _ _), Nat.add_comm]
      simp only [shrWords]
      rw [wordValue.eq_2, h2, e, show wordValue (x :: y :: ys) = x.toNat + 2 ^ 32 * wordValue (y :: ys) from rfl]
      have hp : 2 ^ (32 - j) * 2 ^ j = 2 ^ 32 := by rw [← Nat.pow_add]; congr 1; omega
      have hmod : wordValue (y :: ys) % 2 ^ j = y.toNat % 2 ^ j := by
        rw [wordValue, ← hp, Nat.mul_comm (2 ^ (32 - j)), Nat.mul_assoc, Nat.add_mul_mod_self_left]
      have hd := Nat.div_add_mod (wordValue (y :: ys)) (2 ^ j)
      rw [hmod] at hd
      generalize wordValue (y :: ys) = W at *
      have h3 : x.toNat + 2 ^ 32 * W = x.toNat + 2 ^ j * (y.toNat % 2 ^ j * 2 ^ (32 - j) + 2 ^ 32 * (W / 2 ^ j)) := by
        conv_lhs => rw [← hd]
        rw [Nat.mul_add, Nat.mul_add]
        rw [← hp]; ring
      rw [h3, Nat.add_mul_div_left _ _ (by positivity), Nat.add_assoc]

theorem shlWords_spec (j : Nat) (hj : 0 < j) (hj' : j < 32) (l : List UInt32) :
    (shlWords j l).length = l.length ∧ wordValue (shlWords j l).reverse = 2 ^ j * wordValue l.reverse % 2 ^ (32 * l.length) := by
  induction l with
  | nil => simp [shlWords, wordValue]
  | cons x xs ih =>
    cases xs with
    | nil =>
      refine ⟨rfl, ?_⟩
      simp only [shlWords, List.reverse_singleton, wordValue_singleton, toNat_shl x j hj', List.length_singleton]
      rw [Nat.mul_comm]
    | cons y ys =>
      obtain ⟨h1, h2⟩ := ih
      refine ⟨by simp [shlWords] at h1 ⊢; exact h1, ?_⟩
      have hy := y.toNat_lt
      have hp : 2 ^ (32 - j) * 2 ^ j = 2 ^ 32 := by rw [← Nat.pow_add]; congr 1; omega
      have hlt : y.toNat / 2 ^ (32 - j) < 2 ^ j := by
        rw [Nat.div_lt_iff_lt_mul (by positivity), Nat.mul_comm, hp]
        exact hy
      have hm : x.toNat * 2 ^ j % 2 ^ 32 = x.toNat % 2 ^ (32 - j) * 2 ^ j := by
        rw [← hp]
        exact Nat.mul_mod_mul_right ..
      have e : ((x <<< j.toUInt32) ||| (y >>> (32 - j).toUInt32)).toNat = x.toNat % 2 ^ (32 - j) * 2 ^ j + y.toNat / 2 ^ (32 - j) := by
        rw [UInt32.toNat_or, toNat_shl _ _ hj', toNat_shr _ _ (by omega), hm, or_add _ _ _ hlt (Nat.mul_mod_left _ _)]
      simp only [shlWords]
      rw [wordValue_reverse_cons, h2, e, h1, wordValue_reverse_cons x (y :: ys)]
      -- the bits shifted out of the lower words are the top bits of `y`
      have hq : 2 ^ j * wordValue (y :: ys).reverse / 2 ^ (32 * (y :: ys).length) = y.toNat / 2 ^ (32 - j) := by
        have hl := wordValue_lt ys.reverse
        rw [List.length_reverse] at hl
        rw [wordValue_reverse_cons, List.length_cons, Nat.mul_add 32, Nat.pow_add, Nat.mul_one, ← hp]
        rw [show 2 ^ (32 * ys.length) * (2 ^ (32 - j) * 2 ^ j) = 2 ^ j * (2 ^ (32 * ys.length) * 2 ^ (32 - j)) by ring,
          Nat.mul_div_mul_left _ _ (by positivity), ← Nat.div_div_eq_div_mul, Nat.add_mul_div_left _ _ (by positivity), Nat.div_eq_of_lt hl, Nat.zero_add]
      have hd := Nat.div_add_mod (2 ^ j * wordValue (y :: ys).reverse) (2 ^ (32 * (y :: ys).length))
      rw [hq] at hd
      rw [show 32 * (x :: y :: ys).length = 32 * (y :: ys).length + 32 by simp; ring, Nat.pow_add, Nat.mul_add (2 ^ j)]
      have hM : 0 < 2 ^ (32 * (y :: ys).length) := by positivity
      have hRM := Nat.mod_lt (2 ^ j * wordValue (y :: ys).reverse) hM
      generalize 2 ^ (32 * (y :: ys).length) = M at *
      generalize 2 ^ j * wordValue (y :: ys).reverse = V at *
      conv_rhs => rw [← hd]
      generalize V % M = R at *
      rw [show M * (y.toNat / 2 ^ (32 - j)) + R + 2 ^ j * (M * x.toNat) = R + M * (y.toNat / 2 ^ (32 - j) + x.toNat * 2 ^ j) by ring]
      rw [Nat.mod_mul, Nat.add_mul_mod_self_left, Nat.mod_eq_of_lt hRM, Nat.add_mul_div_left _ _ (by omega), Nat.div_eq_of_lt hRM, Nat.zero_add]
      congr 2
      rw [Nat.add_mod, hm]
      have hb : x.toNat % 2 ^ (32 - j) * 2 ^ j + 2 ^ j ≤ 2 ^ 32 := by
        rw [← hp, ← Nat.succ_mul]
        exact Nat.mul_le_mul_right _ (Nat.mod_lt _ (by positivity))
      have h32 : 2 ^ j ≤ 2 ^ 32 := Nat.pow_le_pow_right (by norm_num) (by omega)
      rw [Nat.mod_eq_of_lt (show y.toNat / 2 ^ (32 - j) < 2 ^ 32 by omega), 
        Nat.mod_eq_of_lt (show y.toNat / 2 ^ (32 - j) + x.toNat % 2 ^ (32 - j) * 2 ^ j < 2 ^ 32 by omega), Nat.add_comm]

/-! ### Registers -/

/-- Shape of a register. -/
structure Shape (c : Combo) : Prop where
  len : c.a.length = 9
  pos : 1 ≤ c.len1
  le : c.len1 ≤ 8

/-- The top word of the first part is not zero. -/
def Top (c : Combo) : Prop := 2 ^ (32 * (c.len1 - 1)) ≤ c.first

theorem Shape.first_lt {c : Combo} (h : Shape c) : c.first < 2 ^ (32 * c.len1) := wordValue_take_lt _ _ (by rw [h.len]; have := h.le; omega)

theorem Shape.second_lt {c : Combo} (h : Shape c) : c.second < 2 ^ (32 * (9 - c.len1)) := by
  have := wordValue_lt (c.a.drop c.len1).reverse
  rwa [List.length_reverse, List.length_drop, h.len] at this

theorem first_word {c : Combo} (h : Shape c) : c.first % 2 ^ 32 = (c.a.headD 0).toNat := by
  obtain ⟨h1, h2, h3⟩ := h
  obtain ⟨a, n⟩ := c
  simp only at h1 h2 h3
  cases a with
  | nil => simp at h1
  | cons x xs =>
    obtain ⟨m, rfl⟩ : ∃ m, n = m + 1 := ⟨n - 1, by omega⟩
    simp only [Combo.first, List.take_succ_cons, wordValue, List.headD_cons]
    have := x.toNat_lt
    omega

theorem second_word {c : Combo} (h : Shape c) : c.second % 2 ^ 32 = (c.a.getD 8 0).toNat := by
  obtain ⟨h1, h2, h3⟩ := h
  have e : c.a.drop c.len1 = (c.a.drop c.len1).take (8 - c.len1) ++ [c.a.getD 8 0] := by
    have : (c.a.drop c.len1).drop (8 - c.len1) = [c.a.getD 8 0] := by
      rw [List.drop_drop, show c.len1 + (8 - c.len1) = 8 by omega, drop_word c.a 8 (by omega), List.drop_eq_nil_of_le (by omega)]
    rw [← this, List.take_append_drop]
  rw [Combo.second, e, List.reverse_append, List.reverse_singleton, List.singleton_append, wordValue]
  have := (c.a.getD 8 0).toNat_lt
  omega

theorem bit0_iff (w : UInt32) : bit0 w = true ↔ w.toNat % 2 = 1 := by
  rw [bit0, beq_iff_eq, ← UInt32.toNat_inj, and1, UInt32.toNat_one]

theorem bit0_first {c : Combo} (h : Shape c) : bit0 (c.a.headD 0) = decide (c.first % 2 = 1) := by
  rw [Bool.eq_iff_iff, bit0_iff, decide_eq_true_iff, ← first_word h]
  omega

theorem bit0_second {c : Combo} (h : Shape c) : bit0 (c.a.getD 8 0) = decide (c.second % 2 = 1) := by
  rw [Bool.eq_iff_iff, bit0_iff, decide_eq_true_iff, ← second_word h]
  omega

theorem shiftBits_spec (c : Combo) (j : Nat) (h : Shape c) (ht : Top c) (hj : j < 32) (hd : 2 ^ j ∣ c.first) (hb : c.first * c.second < 2 ^ 256) :
    ∃ c', shiftBits c j = .ok c' ∧ Shape c' ∧ Top c' ∧ c.first = 2 ^ j * c'.first ∧ c'.second = 2 ^ j * c.second := by
  obtain ⟨h1, h2, h3⟩ := h
  by_cases j0 : j = 0
  · subst j0
    exact ⟨c, by simp [shiftBits], ⟨h1, h2, h3⟩, ht, by simp, by simp⟩
  have hfirst : 2 ^ (32 * (c.len1 - 1)) ≤ wordValue (c.a.take c.len1) := ht
  obtain ⟨r1, r2⟩ := shrWords_spec j (by omega) hj (c.a.take c.len1)
  have hlt : (c.a.take c.len1).length = c.len1 := by rw [List.length_take]; omega
  rw [hlt] at r1
  unfold shiftBits
  rw [if_neg j0]
  dsimp only
  have hf : wordValue (shrWords j (c.a.take c.len1)) * 2 ^ j = c.first := by
    rw [r2]; exact Nat.div_mul_cancel hd
  generalize hA : shrWords j (c.a.take c.len1) = A at *
  have hget : (A ++ c.a.drop c.len1).getD (c.len1 - 1) 0 = A.getD (c.len1 - 1) 0 := by
    rw [List.getD_eq_getElem?_getD, List.getD_eq_getElem?_getD, List.getElem?_append_left (by omega)]
  rw [hget]
  have hsucc := take_succ_word A (c.len1 - 1) (by omega)
  rw [show c.len1 - 1 + 1 = c.len1 by omega, List.take_of_length_le (by omega)] at hsucc
  -- the new boundary
  obtain ⟨n, hn, n1, n8, hA1, hA2, hA3⟩ : ∃ n, (if (A.getD (c.len1 - 1) 0 == 0) = true then c.len1 - 1 else c.len1) = n ∧ 1 ≤ n ∧ n ≤ 8 ∧
      wordValue ((A ++ c.a.drop c.len1).take n) = wordValue A ∧
      wordValue ((A ++ c.a.drop c.len1).drop n).reverse = c.second ∧ 2 ^ (32 * (n - 1)) ≤ wordValue A := by
    by_cases z : A.getD (c.len1 - 1) 0 = 0
    · rw [if_pos (by rw [beq_iff_eq]; exact z)]
      rw [z, UInt32.toNat_zero, Nat.mul_zero, Nat.add_zero] at hsucc
      have hne : 2 ≤ c.len1 := by
        by_contra hc
        have : c.len1 = 1 := by omega
        rw [this] at hsucc hfirst
        simp only [Nat.sub_self, List.take_zero, wordValue] at hsucc
        rw [hsucc, Nat.zero_mul] at hf
        simp only [Combo.first] at hf
        rw [this] at hf
        omega
      refine ⟨c.len1 - 1, rfl, by omega, by omega, ?_, ?_, ?_⟩
      · rw [List.take_append_of_le_length (by omega), ← hsucc]
      · rw [List.drop_append_of_le_length (by omega), drop_word A _ (by omega), z, show c.len1 - 1 + 1 = c.len1 by omega,
          List.drop_eq_nil_of_le (by omega), List.singleton_append, wordValue_reverse_cons, UInt32.toNat_zero, Nat.mul_zero, Nat.add_zero]
        rfl
      · have h5 : 2 ^ (32 * (c.len1 - 1)) ≤ wordValue A * 2 ^ j := by rw [hf]; exact hfirst
        have h6 : 2 ^ j ≤ 2 ^ 32 := Nat.pow_le_pow_right (by norm_num) (by omega)
        rw [show 32 * (c.len1 - 1) = 32 * (c.len1 - 1 - 1) + 32 by omega, Nat.pow_add] at h5
        have h7 : wordValue A * 2 ^ j ≤ wordValue A * 2 ^ 32 := Nat.mul_le_mul_left _ h6
        exact Nat.le_of_mul_le_mul_right (h5.trans h7) (by positivity)
    · rw [if_neg (by rw [beq_iff_eq]; exact z)]
      refine ⟨c.len1, rfl, h2, h3, ?_, ?_, ?_⟩
      · rw [List.take_append_of_le_length (by omega), List.take_of_length_le (by omega)]
      · rw [List.drop_append_of_le_length (by omega), List.drop_eq_nil_of_le (by omega), List.nil_append]
        rfl
      · rw [hsucc]
        have := Nat.mul_le_mul_left (2 ^ (32 * (c.len1 - 1))) (toNat_ne_zero z)
        omega
  rw [hn, if_neg (by omega)]
  have hlen : (A ++ c.a.drop c.len1).length = 9 := by simp [r1, h1]; omega
  generalize A ++ c.a.drop c.len1 = B at *
  obtain ⟨s1, s2⟩ := shlWords_spec j (by omega) hj (B.drop n)
  have hBt : (B.take n).length = n := by rw [List.length_take]; omega
  have e1 : (B.take n ++ shlWords j (B.drop n)).take n = B.take n := by
    rw [List.take_append_of_le_length (by omega), List.take_of_length_le (by omega)]
  have e2 : (B.take n ++ shlWords j (B.drop n)).drop n = shlWords j (B.drop n) := by
    rw [List.drop_append_of_le_length (by omega), List.drop_eq_nil_of_le (by omega), List.nil_append]
  refine ⟨_, rfl, ⟨by simp [s1, hlen]; omega, n1, n8⟩, ?_, ?_, ?_⟩
  · simp only [Top, Combo.first, e1, hA1]
    exact hA3
  · have : Combo.first ⟨B.take n ++ shlWords j (B.drop n), n⟩ = wordValue A := by simp only [Combo.first, e1, hA1]
    rw [this, ← hf, Nat.mul_comm]
  · have : Combo.second ⟨B.take n ++ shlWords j (B.drop n), n⟩ = wordValue (shlWords j (B.drop n)).reverse := by simp only [Combo.second, e2]
    rw [this, s2, hA2, List.length_drop, hlen]
    apply Nat.mod_eq_of_lt
    by_contra hc
    have h5 : 2 ^ (32 * (n - 1)) * 2 ^ (32 * (9 - n)) ≤ wordValue A * (2 ^ j * c.second) := Nat.mul_le_mul hA3 (by omega)
    rw [← Nat.pow_add, show 32 * (n - 1) + 32 * (9 - n) = 256 by omega, ← Nat.mul_assoc, hf] at h5
    omega

theorem makeOdd_spec (c : Combo) (k : Nat) (h : Shape c) (h0 : c.first ≠ 0) (hb : c.first * c.second < 2 ^ 256) :
    ∃ c' t, makeOdd c k = .ok (c', k + t) ∧ Shape c' ∧ Top c' ∧ c.first = 2 ^ t * c'.first ∧ c'.second = 2 ^ t * c.second ∧ c'.first % 2 = 1 := by
  have hlen := h.len
  have hle := h.le
  obtain ⟨m, a1, a2, a3, a4, a5, a6⟩ := trimLen_spec c.a c.len1 (by omega) h0
  obtain ⟨a', n, t, b1, b2, b3, b4, b5, b6, b7, b8⟩ := shiftWords_spec m c.a k (by omega) (by rw [a4]; exact h0) a6
  obtain ⟨j, d1, d2, d3, d4⟩ := lowZeros_spec (a'.headD 0) 32 0 (by omega) b7 (by simp)
  have hs : Shape ⟨a', n⟩ := ⟨by simp only; omega, b3, by simp only; omega⟩
  have hw := first_word hs
  simp only at hw
  have e1 : c.first = 2 ^ t * Combo.first ⟨a', n⟩ := by rw [Combo.first, ← a4, b5]; rfl
  have e2 : Combo.second ⟨a', n⟩ = 2 ^ t * c.second := by rw [Combo.second, b6, a5]; rfl
  have hdvd : 2 ^ j ∣ Combo.first ⟨a', n⟩ := by
    rw [← Nat.div_add_mod (Combo.first ⟨a', n⟩) (2 ^ 32), hw]
    exact Nat.dvd_add (Nat.dvd_mul_right_of_dvd (Nat.pow_dvd_pow 2 (by omega)) _) d3
  obtain ⟨c', f1, f2, f3, f4, f5⟩ := shiftBits_spec ⟨a', n⟩ j hs b8 d2 hdvd (by
    rw [e2]
    calc Combo.first ⟨a', n⟩ * (2 ^ t * c.second) = c.first * c.second := by rw [e1]; ring
      _ < 2 ^ 256 := hb)
  refine ⟨c', t + j, ?_, f2, f3, ?_, ?_, ?_⟩
  · simp only [makeOdd, a1, C.bind_ok, b1, d1, f1, Nat.add_assoc]
  · rw [e1, f4, Nat.pow_add, Nat.mul_assoc]
  · rw [f5, e2, Nat.pow_add]; ring
  · have : c'.first = Combo.first ⟨a', n⟩ / 2 ^ j := by rw [f4, Nat.mul_div_cancel_left _ (by positivity)]
    rw [this, ← Nat.div_add_mod (Combo.first ⟨a', n⟩) (2 ^ 32), hw,
      show (2 : Nat) ^ 32 = 2 ^ j * (2 * 2 ^ (31 - j)) by rw [← Nat.pow_succ', ← Nat.pow_add]; congr 1; omega]
    rw [Nat.mul_assoc, Nat.add_comm, Nat.add_mul_div_left _ _ (by positivity), Nat.mul_assoc, Nat.add_mul_mod_self_left]
    exact d4

/-! ### Comparison, subtraction and addition -/

theorem cmpWords_spec (a b : List UInt32) (h : a.length = b.length) :
    cmpWords a b = compare (wordValue a.reverse) (wordValue b.reverse) := by
  induction a generalizing b with
  | nil =>
    cases b with
    | nil => simp [cmpWords, wordValue]
    | cons => simp at h
  | cons x xs ih =>
    cases b with
    | nil => simp at h
    | cons y ys =>
      simp only [List.length_cons, Nat.add_right_cancel_iff] at h
      rw [wordValue_reverse_cons, wordValue_reverse_cons, cmpWords]
      have hx := wordValue_lt xs.reverse
      have hy := wordValue_lt ys.reverse
      rw [List.length_reverse] at hx hy
      rw [← h] at hy ⊢
      by_cases c : x = y
      · subst c
        simp only [BEq.rfl, if_true, ih ys h]
        rw [Nat.compare_eq_ite_lt, Nat.compare_eq_ite_lt]
        simp
      · rw [if_neg (by rw [beq_iff_eq]; exact c)]
        have hc : x.toNat ≠ y.toNat := fun e => c (UInt32.toNat_inj.mp e)
        by_cases g : y < x
        · rw [if_pos g]
          rw [UInt32.lt_iff_toNat_lt] at g
          have := Nat.mul_le_mul_left (2 ^ (32 * xs.length)) (show y.toNat + 1 ≤ x.toNat by omega)
          rw [Nat.mul_add] at this
          symm
          rw [Nat.compare_eq_gt]
          omega
        · rw [if_neg g]
          rw [UInt32.lt_iff_toNat_lt] at g
          have := Nat.mul_le_mul_left (2 ^ (32 * xs.length)) (show x.toNat + 1 ≤ y.toNat by omega)
          rw [Nat.mul_add] at this
          symm
          rw [Nat.compare_eq_lt]
          omega

theorem len_lt_of_top {c d : Combo} (hc : Shape c) (hd : Top d) (h : c.len1 < d.len1) : c.first < d.first := by
  have h1 := hc.first_lt
  have h2 : 2 ^ (32 * c.len1) ≤ 2 ^ (32 * (d.len1 - 1)) := Nat.pow_le_pow_right (by norm_num) (by omega)
  have h3 : 2 ^ (32 * (d.len1 - 1)) ≤ d.first := hd
  omega

theorem len_le_of_first {c d : Combo} (hd : Shape d) (hc : Top c) (h : c.first ≤ d.first) : c.len1 ≤ d.len1 := by
  by_contra hn
  have := len_lt_of_top hd hc (by omega)
  omega

theorem cmpFirst_spec (us vr : Combo) (hu : Shape us) (hv : Shape vr) (tu : Top us) (tv : Top vr) :
    cmpFirst us vr = compare us.first vr.first := by
  unfold cmpFirst
  by_cases c : us.len1 = vr.len1
  · rw [if_pos c, cmpWords_spec _ _ (by simp [hu.len, hv.len, c]), List.reverse_reverse, List.reverse_reverse]
    rfl
  · rw [if_neg c]
    by_cases g : us.len1 > vr.len1
    · rw [if_pos g]
      symm
      rw [Nat.compare_eq_gt]
      exact len_lt_of_top hv tu g
    · rw [if_neg g]
      symm
      rw [Nat.compare_eq_lt]
      exact len_lt_of_top hu tv (by omega)

/-- Value of the addends of a 32-bit carry loop. -/
def sum32 : List UInt64 → Nat
  | [] => 0
  | e :: es => e.toNat + 2 ^ 32 * sum32 es

theorem toNat_shr64_32 (t : UInt64) : (t >>> 32).toNat = t.toNat / 2 ^ 32 := by
  rw [UInt64.toNat_shiftRight, Nat.shiftRight_eq_div_pow]
  rfl

theorem carry32_length (c : UInt64) (es : List UInt64) : (carry32 c es).length = es.length := by
  induction es generalizing c with
  | nil => rfl
  | cons e es ih => simp [carry32, ih]

theorem carry32_value (c : UInt64) (es : List UInt64) (h : ∀ e ∈ es, e.toNat < 2 ^ 34) (hc : c.toNat < 2 ^ 34) :
    wordValue (carry32 c es) = (c.toNat + sum32 es) % 2 ^ (32 * es.length) := by
  induction es generalizing c with
  | nil => simp [carry32, wordValue, Nat.mod_one]
  | cons e es ih =>
    have he := h e (by simp)
    have ht : (c + e).toNat = c.toNat + e.toNat := by
      rw [UInt64.toNat_add]; exact Nat.mod_eq_of_lt (by omega)
    have hs : ((c + e) >>> 32).toNat = (c.toNat + e.toNat) / 2 ^ 32 := by rw [← ht, toNat_shr64_32]
    simp only [carry32, wordValue, List.length_cons, sum32]
    rw [ih _ (fun x hx => h x (List.mem_cons_of_mem _ hx)) (by rw [hs]; omega), UInt64.toNat_toUInt32, ht, hs]
    rw [show 32 * (es.length + 1) = 32 + 32 * es.length by ring, Nat.pow_add, Nat.mod_mul]
    rw [show (c.toNat + (e.toNat + 2 ^ 32 * sum32 es)) = c.toNat + e.toNat + 2 ^ 32 * sum32 es by ring,
      Nat.add_mul_mod_self_left, Nat.add_mul_div_left _ _ (by norm_num)]

theorem subTerm (e o : UInt32) : ((0xFFFFFFFF : UInt64) + e.toUInt64 - o.toUInt64).toNat = 2 ^ 32 - 1 + e.toNat - o.toNat ∧
    ((0xFFFFFFFF : UInt64) + e.toUInt64).toNat = 2 ^ 32 - 1 + e.toNat := by
  have he := e.toNat_lt
  have ho := o.toNat_lt
  have h1 : ((0xFFFFFFFF : UInt64) + e.toUInt64).toNat = 2 ^ 32 - 1 + e.toNat := by
    rw [UInt64.toNat_add, UInt32.toNat_toUInt64, show (0xFFFFFFFF : UInt64).toNat = 2 ^ 32 - 1 from rfl]
    omega
  refine ⟨?_, h1⟩
  rw [UInt64.toNat_sub_of_le _ _ (by rw [UInt64.le_iff_toNat_le, h1, UInt32.toNat_toUInt64]; omega), h1, UInt32.toNat_toUInt64]

theorem subTerms_spec (es os : List UInt32) (h : os.length ≤ es.length) :
    (subTerms es os).length = es.length ∧ (∀ t ∈ subTerms es os, t.toNat < 2 ^ 34) ∧
      sum32 (subTerms es os) + wordValue os + 1 = wordValue es + 2 ^ (32 * es.length) := by
  induction es generalizing os with
  | nil =>
    cases os with
    | nil => simp [subTerms, sum32, wordValue]
    | cons => simp at h
  | cons e es ih =>
    have he := e.toNat_lt
    cases os with
    | nil =>
      obtain ⟨i1, i2, i3⟩ := ih [] (by simp)
      have hst : subTerms es [] = es.map fun e => 0xFFFFFFFF + e.toUInt64 := by cases es <;> rfl
      rw [hst] at i1 i2 i3
      obtain ⟨-, t⟩ := subTerm e 0
      refine ⟨by simp [subTerms], ?_, ?_⟩
      · intro x hx
        simp only [subTerms, List.map_cons, List.mem_cons] at hx
        rcases hx with rfl | hx
        · rw [t]; omega
        · exact i2 x hx
      · simp only [subTerms, List.map_cons, sum32, wordValue, t, List.length_cons] at i3 ⊢
        rw [show 32 * (es.length + 1) = 32 + 32 * es.length by ring, Nat.pow_add]
        generalize sum32 _ = S at *
        omega
    | cons o os =>
      have ho := o.toNat_lt
      simp only [List.length_cons] at h
      obtain ⟨i1, i2, i3⟩ := ih os (by omega)
      obtain ⟨t, -⟩ := subTerm e o
      refine ⟨by simp [subTerms, i1], ?_, ?_⟩
      · intro x hx
        simp only [subTerms, List.mem_cons] at hx
        rcases hx with rfl | hx
        · rw [t]; omega
        · exact i2 x hx
      · simp only [subTerms, sum32, wordValue, t, List.length_cons]
        rw [show 32 * (es.length + 1) = 32 + 32 * es.length by ring, Nat.pow_add]
        omega

theorem addTerms_spec (os es : List UInt32) (h : es.length ≤ os.length) :
    (addTerms os es).length = os.length ∧ (∀ t ∈ addTerms os es, t.toNat < 2 ^ 34) ∧
      sum32 (addTerms os es) = wordValue os + wordValue es := by
  induction os generalizing es with
  | nil =>
    cases es with
    | nil => simp [addTerms, sum32, wordValue]
    | cons => simp at h
  | cons o os ih =>
    have ho := o.toNat_lt
    cases es with
    | nil =>
      obtain ⟨i1, i2, i3⟩ := ih [] (by simp)
      have hst : addTerms os [] = os.map UInt32.toUInt64 := by cases os <;> rfl
      rw [hst] at i1 i2 i3
      refine ⟨by simp [addTerms], ?_, ?_⟩
      · intro x hx
        simp only [addTerms, List.map_cons, List.mem_cons] at hx
        rcases hx with rfl | hx
        · rw [UInt32.toNat_toUInt64]; omega
        · exact i2 x hx
      · simp only [addTerms, List.map_cons, sum32, wordValue, UInt32.toNat_toUInt64] at i3 ⊢
        generalize sum32 _ = S at *
        omega
    | cons e es =>
      have he := e.toNat_lt
      simp only [List.length_cons] at h
      obtain ⟨i1, i2, i3⟩ := ih es (by omega)
      have t : (o.toUInt64 + e.toUInt64).toNat = o.toNat + e.toNat := by
        rw [UInt64.toNat_add, UInt32.toNat_toUInt64, UInt32.toNat_toUInt64]; omega
      refine ⟨by simp [addTerms, i1], ?_, ?_⟩
      · intro x hx
        simp only [addTerms, List.mem_cons] at hx
        rcases hx with rfl | hx
        · rw [t]; omega
        · exact i2 x hx
      · simp only [addTerms, sum32, wordValue, t]
        omega

theorem combine_spec (even odd : Combo) (he : Shape even) (ho : Shape odd) (hl : odd.len1 ≤ even.len1) (hlt : odd.first ≤ even.first)
    (hb : odd.second + even.second < 2 ^ (32 * (9 - odd.len1))) :
    ∃ e o, combine even odd = (e, o) ∧ Shape e ∧ Shape o ∧ e.first + odd.first = even.first ∧ e.second = even.second ∧
      o.first = odd.first ∧ o.second = odd.second + even.second ∧ o.len1 = odd.len1 := by
  obtain ⟨e1, e2, e3⟩ := he
  obtain ⟨o1, o2, o3⟩ := ho
  have le : (even.a.take even.len1).length = even.len1 := by rw [List.length_take]; omega
  have lo : (odd.a.take odd.len1).length = odd.len1 := by rw [List.length_take]; omega
  have led : (even.a.drop even.len1).reverse.length = 9 - even.len1 := by rw [List.length_reverse, List.length_drop, e1]
  have lod : (odd.a.drop odd.len1).reverse.length = 9 - odd.len1 := by rw [List.length_reverse, List.length_drop, o1]
  obtain ⟨s1, s2, s3⟩ := subTerms_spec (even.a.take even.len1) (odd.a.take odd.len1) (by omega)
  have sv := carry32_value 1 _ s2 (by decide)
  have sl := carry32_length 1 (subTerms (even.a.take even.len1) (odd.a.take odd.len1))
  obtain ⟨a1, a2, a3⟩ := addTerms_spec (odd.a.drop odd.len1).reverse (even.a.drop even.len1).reverse (by omega)
  have av := carry32_value 0 _ a2 (by decide)
  have al := carry32_length 0 (addTerms (odd.a.drop odd.len1).reverse (even.a.drop even.len1).reverse)
  rw [s1, le] at sl sv
  rw [a1, lod] at al av
  rw [le] at s3
  refine ⟨_, _, rfl, ⟨by simp [sl, e1]; omega, e2, e3⟩, ⟨by simp [al, o1]; omega, o2, o3⟩, ?_, ?_, ?_, ?_, rfl⟩
  · simp only [Combo.first]
    rw [List.take_append_of_le_length (by omega), List.take_of_length_le (by omega), sv, UInt64.toNat_one]
    have h1 : wordValue (even.a.take even.len1) < 2 ^ (32 * even.len1) := by have := wordValue_lt (even.a.take even.len1); rwa [le] at this
    have hlt' : wordValue (odd.a.take odd.len1) ≤ wordValue (even.a.take even.len1) := hlt
    rw [show 1 + sum32 (subTerms (even.a.take even.len1) (odd.a.take odd.len1)) =
      (wordValue (even.a.take even.len1) - wordValue (odd.a.take odd.len1)) + 2 ^ (32 * even.len1) by omega, Nat.add_mod_right,
      Nat.mod_eq_of_lt (by omega)]
    omega
  · simp only [Combo.second]
    rw [List.drop_append_of_le_length (by omega), List.drop_eq_nil_of_le (by omega), List.nil_append]
  · simp only [Combo.first]
    rw [List.take_append_of_le_length (by omega), List.take_of_length_le (by omega)]
  · simp only [Combo.second] at hb ⊢
    rw [List.drop_append_of_le_length (by omega), List.drop_eq_nil_of_le (by omega), List.nil_append, List.reverse_reverse, av, a3,
      UInt64.toNat_zero, Nat.zero_add, Nat.mod_eq_of_lt hb]

end BN
end UB
