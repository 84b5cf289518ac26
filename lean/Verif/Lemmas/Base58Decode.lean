import Verif.Props.Radix
import Mathlib.Data.List.GetD
import Mathlib.Tactic.SplitIfs

/-
`fromBase58` on an arbitrary text of the alphabet (not only on texts the encoder produces).
-/

namespace UB
open Spec

def b58 (ds : List Nat) : Bytes := ds.map fun d => base58.chars.getD d 0

def b58Alphabet : Bytes := base58.chars

theorem b58_idx : ∀ c : UInt8, c ∈ base58.chars ↔ c ≠ 0 ∧ (strchrIdx base58.chars c).isSome = true := by
  apply forall_byte; decide +kernel

theorem b58_char_ne {d : Nat} (h : d < 58) : base58.chars.getD d 0 ≠ 0 ∧ (base58.chars.getD d 0 = 49 ↔ d = 0) := by
  revert h; revert d
  decide +kernel

theorem b58_digits (t : Bytes) (h : ∀ c ∈ t, c ∈ base58.chars) : ∃ ds : List Nat, t = b58 ds ∧ ∀ d ∈ ds, d < 58 := by
  induction t with
  | nil => exact ⟨[], rfl, by simp⟩
  | cons c cs ih =>
    obtain ⟨ds, e1, e2⟩ := ih fun x hx => h x (by simp [hx])
    obtain ⟨i, hi, e⟩ := List.getElem_of_mem (h c (by simp))
    refine ⟨i :: ds, ?_, ?_⟩
    · rw [e1]
      simp only [b58, List.map_cons, List.cons.injEq, and_true]
      rw [← e, List.getD_eq_getElem _ _ hi]
    · intro d hd
      rcases List.mem_cons.1 hd with rfl | hd
      · exact hi
      · exact e2 d hd

theorem leadZero_split (ds : List Nat) : ∃ z r, ds = List.replicate z 0 ++ r ∧ r.head? ≠ some 0 ∧
    z = (ds.takeWhile (· == 0)).length ∧ r = ds.dropWhile (· == 0) := by
  induction ds with
  | nil => exact ⟨0, [], by simp⟩
  | cons d ds ih =>
    by_cases hd : d = 0
    · subst hd
      obtain ⟨z, r, e1, e2, e3, e4⟩ := ih
      exact ⟨z + 1, r, by rw [e1]; simp [List.replicate_succ], e2, by simp [e3], by simp [e4]⟩
    · exact ⟨0, d :: ds, by simp, by simpa using hd, by simp [hd], by simp [hd]⟩

theorem digitsValue_lt (r : Nat) (ds : List Nat) (h : ∀ d ∈ ds, d < r) : digitsValue r ds < r ^ ds.length := by
  have key : ∀ (ds : List Nat) (a k : Nat), (∀ d ∈ ds, d < r) → a < r ^ k →
      ds.foldl (fun acc x => acc * r + x) a < r ^ (k + ds.length) := by
    intro ds
    induction ds with
    | nil => intro a k _ h; simpa using h
    | cons d ds ih =>
      intro a k hd ha
      have h0 := hd d (by simp)
      have := ih (a * r + d) (k + 1) (fun x hx => hd x (by simp [hx])) (by
        rw [pow_succ]
        calc a * r + d < a * r + r := by omega
          _ = (a + 1) * r := by ring
          _ ≤ _ := Nat.mul_le_mul_right _ ha)
      simp only [List.foldl_cons, List.length_cons]
      rw [show k + (ds.length + 1) = k + 1 + ds.length by omega]
      exact this
  have := key ds 0 0 h (by simp)
  simpa [digitsValue] using this

theorem digitsValue_zeros_append (z : Nat) (ds : List Nat) : digitsValue 58 (List.replicate z 0 ++ ds) = digitsValue 58 ds := by
  unfold digitsValue
  rw [List.foldl_append]
  congr 1
  induction z with
  | zero => rfl
  | succ z ih => simp [List.replicate_succ, ih]

/-- The decoder's work area is never too small. -/
theorem dec_no_overflow (n : Nat) : 58 ^ n ≤ 256 ^ (n * 361 / 493 + 1) := by
  have hd := good58.dec
  have e1 : base58.chars.length = 58 := by decide
  have e2 : base58.decDen = 493 := rfl
  have e3 : base58.decNum = 361 := rfl
  rw [e1, e2, e3] at hd
  have h1 : n * 361 ≤ (n * 361 / 493 + 1) * 493 := by omega
  have h2 : (58 ^ n) ^ 493 ≤ (256 ^ (n * 361 / 493 + 1)) ^ 493 := by
    calc (58 ^ n) ^ 493 = (58 ^ 493) ^ n := by rw [← pow_mul, ← pow_mul, Nat.mul_comm]
      _ ≤ (256 ^ 361) ^ n := Nat.pow_le_pow_left hd n
      _ = 256 ^ (n * 361) := by rw [← pow_mul, Nat.mul_comm]
      _ ≤ 256 ^ ((n * 361 / 493 + 1) * 493) := Nat.pow_le_pow_right (by norm_num) h1
      _ = _ := by rw [pow_mul]
  exact (Nat.pow_le_pow_iff_left (by norm_num)).mp h2

theorem countShift_eq (t : Bytes) (h : t.length < 256) : (countShift t).toNat = countZeros t := by
  obtain ⟨s1, s2⟩ := countZeros_split t
  have hle := countZeros_le t
  conv => lhs; rw [s1]
  rw [countShift_zeros _ _ s2, UInt8.toNat_ofNat']
  exact Nat.mod_eq_of_lt (by omega)

/-- What `fromBase58` computes from the digits of a text (below 256 characters). -/
theorem fromBase58_digits (ds : List Nat) (hd : ∀ d ∈ ds, d < 58) (hl : ds.length < 256) (rest out : Bytes)
    (hrest : ∀ c, rest.head? = some c → c ∉ base58.chars ∧ c ≠ 0) :
    ∃ tmp : Bytes, tmp.length = ds.length * 361 / 493 + 1 ∧ beValue tmp = digitsValue 58 ds ∧
      fromBase58 (b58 ds ++ rest) out =
        if tmp.length - countZeros (tmp.drop (ds.takeWhile (· == 0)).length) > out.length then (0, zeros out.length)
        else (tmp.length - countZeros (tmp.drop (ds.takeWhile (· == 0)).length),
          tmp.drop (countZeros (tmp.drop (ds.takeWhile (· == 0)).length)) ++
            zeros (out.length - (tmp.length - countZeros (tmp.drop (ds.takeWhile (· == 0)).length)))) := by
  have e58 : base58.chars.length = 58 := by decide
  have htr : truncAlphabet base58 (b58 ds ++ rest) = b58 ds := by
    apply truncAlphabet_all
    · intro c hc
      obtain ⟨d, hd', rfl⟩ := List.mem_map.mp hc
      rw [good58.idx d (by rw [e58]; exact hd d hd')]; rfl
    · intro c hc
      obtain ⟨h1, h2⟩ := hrest c hc
      rw [b58_idx] at h1
      cases h3 : (strchrIdx base58.chars c).isSome with
      | false => rfl
      | true => exact absurd ⟨h2, h3⟩ h1
  obtain ⟨z, r, f1, f2, f3, -⟩ := leadZero_split ds
  have hzc : countZeroChar base58 (b58 ds) = UInt8.ofNat z := by
    have : b58 ds = List.replicate z (base58.chars.getD 0 0) ++ b58 r := by rw [f1]; simp [b58]
    rw [this]
    apply countZeroChar_replicate
    cases r with
    | nil => simp [b58]
    | cons d r =>
      simp only [b58, List.map_cons, List.head?_cons, ne_eq, Option.some.injEq]
      intro h
      have := (b58_char_ne (hd d (by rw [f1]; simp))).2.mp (by rw [h]; decide)
      simp [this] at f2
  have hzl : z ≤ ds.length := by rw [f1]; simp
  obtain ⟨t, t1, t2, t3⟩ := decPasses_spec base58 good58 ds (zeros (ds.length * 361 / 493 + 1)) (by rw [e58]; exact hd)
  rw [length_zeros] at t2 t3
  have hle0 : leValue (zeros (ds.length * 361 / 493 + 1)) = 0 := by
    simp [leValue, zeros, List.reverse_replicate]; exact beValue_zeros _
  have hval : beValue t.reverse = digitsValue 58 ds := by
    have : leValue t = beValue t.reverse := rfl
    rw [← this, t3, hle0, e58]
    simp only [Nat.zero_mul, Nat.zero_add]
    exact Nat.mod_eq_of_lt (Nat.lt_of_lt_of_le (digitsValue_lt 58 ds hd) (dec_no_overflow _))
  refine ⟨t.reverse, by rw [List.length_reverse, t2], hval, ?_⟩
  unfold fromBase58 fromBase
  have hS : fromBaseLength base58 (b58 ds).length = ds.length * 361 / 493 + 1 := by
    simp [fromBaseLength, b58, base58]
  simp only [htr, hS, hzc]
  rw [show decPasses base58 (b58 ds) (zeros (ds.length * 361 / 493 + 1)) = some t from t1]
  simp only []
  have hzn : (UInt8.ofNat z).toNat = z := by simp; omega
  rw [hzn, countShift_eq _ (by rw [List.length_drop, List.length_reverse, t2]; omega), ← f3, List.length_reverse, t2]

/-- Minimal base-58 numeral. -/
def b58Num (v : Nat) : Bytes := b58 (Nat.digits 58 v).reverse

theorem base58Text_eq (a : Bytes) : base58Text a = List.replicate (countZeros a) 49 ++ b58Num (beValue a) := by
  rw [← radixText58]
  rfl

theorem b58Num_head (v : Nat) : (b58Num v).head? ≠ some 49 := numeral_head base58 good58 v

theorem dropWhile_ones (z : Nat) (r : Bytes) (h : r.head? ≠ some 49) :
    (List.replicate z 49 ++ r).dropWhile (· == 49) = r := by
  induction z with
  | zero =>
    cases r with
    | nil => rfl
    | cons c r => simp at h; simp [h]
  | succ z ih => simpa [List.replicate_succ] using ih

theorem base58Text_strip (a : Bytes) : (base58Text a).dropWhile (· == 49) = b58Num (beValue a) := by
  rw [base58Text_eq, dropWhile_ones _ _ (b58Num_head _)]

theorem b58_num (ds : List Nat) (hd : ∀ d ∈ ds, d < 58) :
    b58 ds = List.replicate (ds.takeWhile (· == 0)).length 49 ++ b58Num (digitsValue 58 ds) := by
  obtain ⟨z, r, f1, f2, f3, f4⟩ := leadZero_split ds
  have h := digits_of_ofDigits 58 (by norm_num) ds hd
  have h2 := digitsValue_reverse 58 ds.reverse
  rw [List.reverse_reverse] at h2
  rw [← h2, ← f4] at h
  rw [← f3, b58Num, ← h]
  conv => lhs; rw [f1]
  simp [b58]
  right; decide

theorem b58_strip (ds : List Nat) (hd : ∀ d ∈ ds, d < 58) :
    (b58 ds).dropWhile (· == 49) = b58Num (digitsValue 58 ds) := by
  rw [b58_num ds hd, dropWhile_ones _ _ (b58Num_head _)]

theorem countZeros_of_head {a : Bytes} (h : a.head? ≠ some 0) : countZeros a = 0 := by
  cases a with
  | nil => rfl
  | cons b bs => simp at h; simp [countZeros, h]

/-- A text without leading '1' that decodes to `a` is the base-58 text of `a`. -/
theorem fromBase58_sound_nonzero (t a out rest : Bytes) (ht : ∀ c ∈ t, c ∈ base58.chars) (hl : t.length < 256)
    (h1 : t.head? ≠ some 49) (ha : a ≠ []) (hrest : ∀ c, rest.head? = some c → c ∉ base58.chars ∧ c ≠ 0)
    (h : ∃ r, fromBase58 (t ++ rest) out = (a.length, a ++ r)) : t = base58Text a := by
  obtain ⟨ds, rfl, hd⟩ := b58_digits t ht
  obtain ⟨r, h⟩ := h
  have hz : (ds.takeWhile (· == 0)).length = 0 := by
    cases ds with
    | nil => rfl
    | cons d ds =>
      have : d ≠ 0 := by rintro rfl; exact h1 (by simp [b58]; decide)
      simp [this]
  obtain ⟨tmp, e1, e2, e3⟩ := fromBase58_digits ds hd (by simpa [b58] using hl) rest out hrest
  rw [e3, hz] at h
  simp only [List.drop_zero] at h
  have hal : a.length ≠ 0 := fun h => ha (List.length_eq_zero_iff.mp h)
  split_ifs at h with hc
  · simp only [Prod.mk.injEq] at h; exact absurd h.1.symm hal
  · simp only [Prod.mk.injEq] at h
    obtain ⟨h2, h3⟩ := h
    have hda : tmp.drop (countZeros tmp) = a := List.append_inj_left h3 (by rw [List.length_drop]; exact h2)
    have hz0 := countZeros_of_head (countZeros_split tmp).2
    rw [hda] at hz0
    have hv := beValue_drop_zeros tmp
    rw [hda, e2] at hv
    rw [b58_num ds hd, hz, base58Text_eq, hz0, hv]

theorem beValue_drop (a : Bytes) (k : Nat) (h : beValue a < 256 ^ (a.length - k)) : beValue (a.drop k) = beValue a := by
  by_cases hk : k ≤ a.length
  · have e := beValue_append (a.take k) (a.drop k)
    rw [List.take_append_drop, List.length_drop] at e
    rw [e] at h
    have : beValue (a.take k) = 0 := by
      rcases Nat.eq_zero_or_pos (beValue (a.take k)) with h0 | h0
      · exact h0
      · have := Nat.mul_le_mul_right (256 ^ (a.length - k)) h0
        omega
    rw [e, this]; simp
  · rw [List.drop_of_length_le (by omega)]
    rw [show a.length - k = 0 by omega] at h
    simp at h
    rw [h]; rfl

theorem beValue_lt_drop (a : Bytes) (k : Nat) (h : a.take k = zeros (a.take k).length) : beValue a < 256 ^ (a.length - k) := by
  have e := beValue_append (a.take k) (a.drop k)
  rw [List.take_append_drop, h, beValue_zeros, List.length_drop] at e
  rw [e]
  have := beValue_lt (a.drop k)
  rw [List.length_drop] at this
  omega

/-- A text of at most 35 characters that decodes to 25 bytes has their value. -/
theorem fromBase58_value_25 (t a out rest : Bytes) (ht : ∀ c ∈ t, c ∈ base58.chars) (hl : t.length ≤ 35)
    (ha : a.length = 25) (hrest : ∀ c, rest.head? = some c → c ∉ base58.chars ∧ c ≠ 0)
    (h : ∃ r, fromBase58 (t ++ rest) out = (a.length, a ++ r)) :
    t.dropWhile (· == 49) = (base58Text a).dropWhile (· == 49) := by
  obtain ⟨ds, rfl, hd⟩ := b58_digits t ht
  obtain ⟨r, h⟩ := h
  have hl' : ds.length ≤ 35 := by simpa [b58] using hl
  obtain ⟨tmp, e1, e2, e3⟩ := fromBase58_digits ds hd (by omega) rest out hrest
  rw [e3] at h
  generalize hz : (ds.takeWhile (· == 0)).length = z at h
  split_ifs at h with hc
  · simp only [Prod.mk.injEq] at h; omega
  · simp only [Prod.mk.injEq] at h
    obtain ⟨h2, h3⟩ := h
    generalize hk : countZeros (tmp.drop z) = k at h2 h3
    have hda : tmp.drop k = a := List.append_inj_left h3 (by rw [List.length_drop]; exact h2)
    have hv : beValue tmp < 256 ^ (tmp.length - k) := by
      have hsz : ds.length * 361 / 493 + 1 ≤ 26 := by omega
      have hk1 : k = tmp.length - 25 := by omega
      by_cases hk0 : k = 0
      · rw [hk0, Nat.sub_zero]; exact beValue_lt tmp
      · have hL : ds.length = 35 := by omega
        have hk2 : k = 1 := by omega
        have hT : tmp.length = 26 := by omega
        by_cases hz0 : z = 0
        · apply beValue_lt_drop
          rw [hz0, List.drop_zero] at hk
          have := (countZeros_split tmp).1
          rw [hk] at this
          rw [this]
          rw [List.take_left' (by simp)]
          simp
        · rw [e2]
          obtain ⟨z', r', f1, f2, f3, f4⟩ := leadZero_split ds
          rw [f1, digitsValue_zeros_append]
          have hr : r'.length ≤ 34 := by
            have := congrArg List.length f1
            simp only [List.length_append, List.length_replicate] at this
            omega
          have := digitsValue_lt 58 r' (fun d hd' => hd d (by rw [f1]; simp [hd']))
          calc _ < 58 ^ r'.length := this
            _ ≤ 58 ^ 34 := Nat.pow_le_pow_right (by norm_num) hr
            _ ≤ 256 ^ (tmp.length - k) := by rw [hT, hk2]; norm_num
    have hv' := beValue_drop tmp k hv
    rw [hda, e2] at hv'
    rw [b58_strip ds hd, base58Text_strip, hv']

/-- A text too short for 25 bytes never decodes to 25 bytes. -/
theorem fromBase58_short (t out : Bytes) (hl : t.length ≤ 32) : (fromBase58 t out).1 ≤ 24 := by
  have h1 := fromBase_len_le base58 t out
  have h2 := length_truncAlphabet base58 t
  unfold fromBaseLength at h1
  have e : base58.decNum = 361 := rfl
  have e' : base58.decDen = 493 := rfl
  rw [e, e'] at h1
  unfold fromBase58
  omega

/-- The first character of a base-58 numeral. -/
theorem b58Num_first (v k : Nat) (h1 : 58 ^ k ≤ v) (h2 : v < 58 ^ (k + 1)) :
    (b58Num v).head? = some (base58.chars.getD (v / 58 ^ k) 0) ∧ (b58Num v).length = k + 1 := by
  have hv : v ≠ 0 := by have : 0 < 58 ^ k := by positivity
                        omega
  have hlen : (Nat.digits 58 v).length = k + 1 := by
    have l1 : (Nat.digits 58 v).length ≤ k + 1 := (Nat.digits_length_le_iff (by norm_num) v).mpr h2
    have l2 : k < (Nat.digits 58 v).length := (Nat.lt_digits_length_iff (by norm_num) v).mpr h1
    omega
  refine ⟨?_, by rw [b58Num, b58]; simp [hlen]⟩
  have hdrop := Nat.self_div_pow_eq_ofDigits_drop k v (p := 58) (by norm_num)
  obtain ⟨x, hx⟩ : ∃ x, (Nat.digits 58 v).drop k = [x] := by
    have : ((Nat.digits 58 v).drop k).length = 1 := by rw [List.length_drop, hlen]; omega
    exact List.length_eq_one_iff.mp this
  rw [hx] at hdrop
  simp at hdrop
  have e := List.take_append_drop k (Nat.digits 58 v)
  rw [hx] at e
  rw [b58Num, ← e, hdrop]
  simp [b58]

end UB
