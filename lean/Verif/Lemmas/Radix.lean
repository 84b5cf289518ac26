import Mathlib.Data.Nat.Digits.Lemmas
import Mathlib.Tactic.Ring
import Mathlib.Tactic.Linarith
import Verif.Model.Conversion
import Verif.Spec.Conversion
import Verif.Lemmas.Bytes

/-
Correctness of the base-58/base-43 loops.
-/

namespace UB
open Spec

/-- What the proofs need of the alphabet and of the size estimates. -/
structure GoodRadix (R : Radix) : Prop where
  lo : 2 ≤ R.chars.length
  hi : R.chars.length ≤ 64
  idx : ∀ d < R.chars.length, strchrIdx R.chars (R.chars.getD d 0) = some d
  encDen : 0 < R.encDen
  decDen : 0 < R.decDen
  enc : 256 ^ R.encDen ≤ R.chars.length ^ R.encNum
  dec : R.chars.length ^ R.decDen ≤ 256 ^ R.decNum

theorem good58 : GoodRadix base58 where
  lo := by decide
  hi := by decide
  idx := by decide +kernel
  encDen := by decide
  decDen := by decide
  enc := by decide +kernel
  dec := by decide +kernel

theorem good43 : GoodRadix base43 where
  lo := by decide
  hi := by decide
  idx := by decide +kernel
  encDen := by decide
  decDen := by decide
  enc := by decide +kernel
  dec := by decide +kernel

theorem divPass_spec (r : UInt16) (h0 : 0 < r.toNat) (hr : r.toNat ≤ 64) : ∀ (buf : Bytes) (rem : UInt16),
    rem.toNat < r.toNat →
    (divPass r rem buf).2.toNat < r.toNat ∧
    (divPass r rem buf).1.length = buf.length ∧
    rem.toNat * 256 ^ buf.length + beValue buf =
      r.toNat * beValue (divPass r rem buf).1 + (divPass r rem buf).2.toNat := by
  intro buf
  induction buf with
  | nil => intro rem h; simp [divPass, beValue, h]
  | cons b bs ih =>
    intro rem h
    have hb := b.toNat_lt
    have ht : (rem * 256 + b.toUInt16).toNat = rem.toNat * 256 + b.toNat := by
      simp only [UInt16.toNat_add, UInt16.toNat_mul]
      simp
      omega
    have hm : ((rem * 256 + b.toUInt16) % r).toNat = (rem.toNat * 256 + b.toNat) % r.toNat := by
      rw [UInt16.toNat_mod, ht]
    have hd : ((rem * 256 + b.toUInt16) / r).toUInt8.toNat = (rem.toNat * 256 + b.toNat) / r.toNat := by
      rw [UInt16.toNat_toUInt8, UInt16.toNat_div, ht]
      apply Nat.mod_eq_of_lt
      have : rem.toNat * 256 + b.toNat < r.toNat * 256 := by omega
      exact Nat.div_lt_of_lt_mul this
    obtain ⟨i1, i2, i3⟩ := ih _ (by rw [hm]; exact Nat.mod_lt _ h0)
    refine ⟨?_, ?_, ?_⟩
    · simpa [divPass] using i1
    · simpa [divPass] using i2
    · simp only [divPass]
      rw [beValue_cons, beValue_cons, i2, hd, List.length_cons]
      have e := Nat.div_add_mod (rem.toNat * 256 + b.toNat) r.toNat
      rw [hm] at i3
      set q := (rem.toNat * 256 + b.toNat) / r.toNat
      set m := (rem.toNat * 256 + b.toNat) % r.toNat
      calc rem.toNat * 256 ^ (bs.length + 1) + (b.toNat * 256 ^ bs.length + beValue bs)
          = (rem.toNat * 256 + b.toNat) * 256 ^ bs.length + beValue bs := by ring
        _ = (r.toNat * q + m) * 256 ^ bs.length + beValue bs := by rw [e]
        _ = r.toNat * q * 256 ^ bs.length + (m * 256 ^ bs.length + beValue bs) := by ring
        _ = _ := by rw [i3]; ring

/-- The digits produced by the passes, least significant first. -/
def encDigits (r : UInt16) : Nat → Bytes → List Nat
  | 0, _ => []
  | j + 1, buf => (divPass r 0 buf).2.toNat :: encDigits r j (divPass r 0 buf).1

theorem encPasses_eq (R : Radix) (j : Nat) (buf : Bytes) :
    encPasses R j buf = (encDigits (UInt16.ofNat R.chars.length) j buf).map fun d => R.chars.getD d 0 := by
  induction j generalizing buf with
  | zero => rfl
  | succ j ih => simp [encPasses, encDigits, ih]

theorem encDigits_spec (r : UInt16) (h0 : 0 < r.toNat) (hr : r.toNat ≤ 64) : ∀ (j : Nat) (buf : Bytes),
    (encDigits r j buf).length = j ∧ (∀ d ∈ encDigits r j buf, d < r.toNat) ∧
    (beValue buf < r.toNat ^ j → Nat.ofDigits r.toNat (encDigits r j buf) = beValue buf) := by
  intro j
  induction j with
  | zero => intro buf; simp [encDigits]; intro h; omega
  | succ j ih =>
    intro buf
    obtain ⟨d1, d2, d3⟩ := divPass_spec r h0 hr buf 0 (by simpa using h0)
    obtain ⟨i1, i2, i3⟩ := ih (divPass r 0 buf).1
    refine ⟨by simp [encDigits, i1], ?_, ?_⟩
    · intro d hd
      simp only [encDigits, List.mem_cons] at hd
      rcases hd with rfl | hd
      · exact d1
      · exact i2 d hd
    · intro hv
      simp only [encDigits, Nat.ofDigits_cons]
      simp only [UInt16.toNat_zero, Nat.zero_mul, Nat.zero_add] at d3
      have : beValue (divPass r 0 buf).1 < r.toNat ^ j := by
        rw [Nat.pow_succ] at hv
        have : r.toNat * beValue (divPass r 0 buf).1 < r.toNat * r.toNat ^ j := by
          rw [Nat.mul_comm (r.toNat) (r.toNat ^ j)]; omega
        exact Nat.lt_of_mul_lt_mul_left this
      rw [i3 this, d3]
      omega

theorem digits_of_ofDigits (b : Nat) (hb : 1 < b) : ∀ m : List Nat, (∀ d ∈ m, d < b) →
    (m.dropWhile (· == 0)) = (Nat.digits b (Nat.ofDigits b m.reverse)).reverse := by
  intro m
  induction m with
  | nil => intro _; simp
  | cons d ds ih =>
    intro h
    by_cases hd : d = 0
    · subst hd
      have := ih (fun x hx => h x (by simp [hx]))
      simp only [List.dropWhile_cons, beq_self_eq_true, if_true, List.reverse_cons]
      rw [this, Nat.ofDigits_append]
      simp
    · have hd' : (d == 0) = false := by simpa using hd
      simp only [List.dropWhile_cons, hd', Bool.false_eq_true, if_false]
      rw [Nat.digits_ofDigits b hb _ (fun x hx => h x (by simpa [or_comm] using hx))
        (fun hne => by simpa using hd), List.reverse_reverse]

theorem stripZeroChar_map (R : Radix) (G : GoodRadix R) : ∀ ds : List Nat, (∀ d ∈ ds, d < R.chars.length) →
    stripZeroChar R (ds.map fun d => R.chars.getD d 0) =
      (ds.dropWhile (· == 0)).map fun d => R.chars.getD d 0 := by
  intro ds
  induction ds with
  | nil => intro _; rfl
  | cons d ds ih =>
    intro h
    have hd := h d (by simp)
    have ih := ih (fun x hx => h x (by simp [hx]))
    simp only [List.map_cons, stripZeroChar, List.dropWhile_cons]
    by_cases hz : d = 0
    · subst hz; simpa using ih
    · have hne : R.chars.getD d 0 ≠ R.chars.getD 0 0 := by
        intro he
        have h1 := G.idx d hd
        have h2 := G.idx 0 (by have := G.lo; omega)
        rw [he, h2] at h1
        exact hz (by simpa using h1.symm)
      have e1 : (R.chars.getD d 0 == R.chars.getD 0 0) = false := by simpa using hne
      have e2 : (d == 0) = false := by simpa using hz
      rw [e1, e2]
      simp

theorem toNat_radix (R : Radix) (G : GoodRadix R) :
    (UInt16.ofNat R.chars.length).toNat = R.chars.length := by
  have := G.hi
  simp; omega

theorem countZeros_le (a : Bytes) : countZeros a ≤ a.length := by
  induction a with
  | nil => simp [countZeros]
  | cons b bs ih => simp only [countZeros]; split <;> simp; omega

theorem countZeros_split (a : Bytes) :
    a = zeros (countZeros a) ++ a.drop (countZeros a) ∧ (a.drop (countZeros a)).head? ≠ some 0 := by
  induction a with
  | nil => simp [countZeros, zeros]
  | cons b bs ih =>
    simp only [countZeros]
    by_cases hb : b = 0
    · subst hb
      obtain ⟨h1, h2⟩ := ih
      simp only [beq_self_eq_true, if_true, List.drop_succ_cons]
      refine ⟨?_, h2⟩
      rw [zeros_succ, List.cons_append, ← h1]
    · have : (b == 0) = false := by simpa using hb
      rw [this]
      simp [zeros, hb]

theorem countZeros_eq (a : Bytes) : countZeros a = (a.takeWhile (· == 0)).length := by
  induction a with
  | nil => rfl
  | cons b bs ih =>
    simp only [countZeros, List.takeWhile_cons]
    split <;> simp [ih]

theorem beValue_drop_zeros (a : Bytes) : beValue (a.drop (countZeros a)) = beValue a := by
  have := (countZeros_split a).1
  conv => rhs; rw [this]
  rw [beValue_append, beValue_zeros]; simp

/-- The size estimate is large enough. -/
theorem size_ok (R : Radix) (G : GoodRadix R) (m : Nat) :
    256 ^ m ≤ R.chars.length ^ (m * R.encNum / R.encDen + 1) := by
  have hd := G.encDen
  have h1 : m * R.encNum ≤ (m * R.encNum / R.encDen + 1) * R.encDen := by
    have := Nat.div_add_mod (m * R.encNum) R.encDen
    have h2 := Nat.mod_lt (m * R.encNum) hd
    rw [Nat.add_mul, Nat.one_mul, Nat.mul_comm (m * R.encNum / R.encDen)]
    omega
  have h2 : (256 ^ m) ^ R.encDen ≤ (R.chars.length ^ (m * R.encNum / R.encDen + 1)) ^ R.encDen := by
    calc (256 ^ m) ^ R.encDen = (256 ^ R.encDen) ^ m := by rw [← pow_mul, ← pow_mul, Nat.mul_comm]
      _ ≤ (R.chars.length ^ R.encNum) ^ m := Nat.pow_le_pow_left G.enc m
      _ = R.chars.length ^ (m * R.encNum) := by rw [← pow_mul, Nat.mul_comm]
      _ ≤ R.chars.length ^ ((m * R.encNum / R.encDen + 1) * R.encDen) :=
          Nat.pow_le_pow_right (by have := G.lo; omega) h1
      _ = _ := by rw [← pow_mul]
  exact (Nat.pow_le_pow_iff_left (by omega)).mp h2

/-- Text of a byte string in the radix: one zero digit per leading zero byte, then the minimal
numeral of the value. -/
def radixText (R : Radix) (a : Bytes) : Bytes :=
  List.replicate (countZeros a) (R.chars.getD 0 0) ++
    (Nat.digits R.chars.length (beValue a)).reverse.map fun d => R.chars.getD d 0

theorem encode_core (R : Radix) (G : GoodRadix R) (a : Bytes) :
    stripZeroChar R (encPasses R ((a.length - countZeros a) * R.encNum / R.encDen + 1)
      (a.drop (countZeros a))).reverse =
    (Nat.digits R.chars.length (beValue a)).reverse.map fun d => R.chars.getD d 0 := by
  have hr := toNat_radix R G
  have hlo := G.lo
  obtain ⟨e1, e2, e3⟩ := encDigits_spec (UInt16.ofNat R.chars.length) (by rw [hr]; omega)
    (by rw [hr]; exact G.hi) ((a.length - countZeros a) * R.encNum / R.encDen + 1) (a.drop (countZeros a))
  rw [hr] at e2 e3
  have hv : beValue (a.drop (countZeros a)) < R.chars.length ^ ((a.length - countZeros a) * R.encNum / R.encDen + 1) := by
    have h1 := beValue_lt (a.drop (countZeros a))
    rw [List.length_drop] at h1
    exact Nat.lt_of_lt_of_le h1 (size_ok R G _)
  have e3 := e3 hv
  rw [encPasses_eq, ← List.map_reverse, stripZeroChar_map R G _ (fun d hd => e2 d (by simpa using hd)),
    digits_of_ofDigits _ (by omega) _ (fun d hd => e2 d (by simpa using hd)), List.reverse_reverse, e3,
    beValue_drop_zeros]

theorem length_digits_le (R : Radix) (G : GoodRadix R) (a : Bytes) :
    (radixText R a).length ≤ toBaseLength R a := by
  have hlo := G.lo
  unfold radixText toBaseLength
  simp only [List.length_append, List.length_replicate, List.length_map, List.length_reverse]
  have : (Nat.digits R.chars.length (beValue a)).length ≤ (a.length - countZeros a) * R.encNum / R.encDen + 1 := by
    rw [Nat.digits_length_le_iff (by omega)]
    rw [← beValue_drop_zeros]
    have h1 := beValue_lt (a.drop (countZeros a))
    rw [List.length_drop] at h1
    exact Nat.lt_of_lt_of_le h1 (size_ok R G _)
  omega

/-- The encoder writes the text of the byte string. -/
theorem toBase_eq (R : Radix) (G : GoodRadix R) (a out : Bytes) (h : toBaseLength R a ≤ out.length) :
    toBase R a out = ((radixText R a).length, radixText R a ++ zeros (out.length - (radixText R a).length)) := by
  unfold toBase
  rw [toBaseLength] at h
  simp only []
  rw [if_neg (by omega), encode_core R G]
  rfl

/-! ### Decoding -/

theorem mulAddPass_spec (r : UInt16) (hr : r.toNat ≤ 64) : ∀ (ts : Bytes) (val : UInt16),
    val.toNat ≤ 255 →
    (mulAddPass r val ts).length = ts.length ∧
    leValue (mulAddPass r val ts) = (leValue ts * r.toNat + val.toNat) % 256 ^ ts.length := by
  intro ts
  induction ts with
  | nil => intro val h; simp [mulAddPass, leValue, beValue, Nat.mod_one]
  | cons t ts ih =>
    intro val h
    have ht := t.toNat_lt
    have hb : t.toNat * r.toNat ≤ 255 * 64 := Nat.mul_le_mul (by omega) hr
    have hc : (t.toUInt16 * r + val).toNat = t.toNat * r.toNat + val.toNat := by
      simp only [UInt16.toNat_add, UInt16.toNat_mul]
      simp
      omega
    have hq : ((t.toUInt16 * r + val) / 256).toNat = (t.toNat * r.toNat + val.toNat) / 256 := by
      rw [UInt16.toNat_div, hc]; rfl
    have hm : ((t.toUInt16 * r + val) % 256).toUInt8.toNat = (t.toNat * r.toNat + val.toNat) % 256 := by
      rw [UInt16.toNat_toUInt8, UInt16.toNat_mod, hc]
      simp
    obtain ⟨i1, i2⟩ := ih ((t.toUInt16 * r + val) / 256) (by rw [hq]; omega)
    refine ⟨by simp [mulAddPass, i1], ?_⟩
    simp only [mulAddPass]
    rw [leValue_cons, leValue_cons, hm, i2, hq, List.length_cons, Nat.pow_succ, Nat.mul_comm (256 ^ ts.length),
      Nat.mod_mul]
    set c := t.toNat * r.toNat + val.toNat
    have e1 : (t.toNat + 256 * leValue ts) * r.toNat + val.toNat = c + 256 * (leValue ts * r.toNat) := by
      simp only [c]; ring
    rw [e1, Nat.add_mul_mod_self_left, Nat.add_mul_div_left _ _ (by omega), Nat.add_comm (c / 256)]

theorem decPasses_spec (R : Radix) (G : GoodRadix R) : ∀ (ds : List Nat) (tmp : Bytes),
    (∀ d ∈ ds, d < R.chars.length) →
    ∃ t, decPasses R (ds.map fun d => R.chars.getD d 0) tmp = some t ∧ t.length = tmp.length ∧
      leValue t = (leValue tmp * R.chars.length ^ ds.length + digitsValue R.chars.length ds) % 256 ^ tmp.length := by
  have hr := toNat_radix R G
  have hhi := G.hi
  have fold : ∀ (l : List Nat) (a : Nat), l.foldl (fun acc x => acc * R.chars.length + x) a =
      a * R.chars.length ^ l.length + digitsValue R.chars.length l := by
    intro l
    induction l with
    | nil => intro a; simp [digitsValue]
    | cons x xs ih =>
      intro a
      simp only [digitsValue, List.foldl_cons, List.length_cons]
      rw [ih, ih (0 * _ + x)]; ring
  intro ds
  induction ds with
  | nil =>
    intro tmp _
    refine ⟨tmp, rfl, rfl, ?_⟩
    simp [digitsValue, Nat.mod_eq_of_lt (leValue_lt tmp)]
  | cons d ds ih =>
    intro tmp h
    have hd := h d (by simp)
    have hv : (UInt16.ofNat d).toNat = d := by simp; omega
    obtain ⟨m1, m2⟩ := mulAddPass_spec (UInt16.ofNat R.chars.length) (by rw [hr]; exact hhi) tmp (UInt16.ofNat d)
      (by rw [hv]; omega)
    obtain ⟨t, t1, t2, t3⟩ := ih (mulAddPass (UInt16.ofNat R.chars.length) (UInt16.ofNat d) tmp)
      (fun x hx => h x (by simp [hx]))
    refine ⟨t, ?_, by rw [t2, m1], ?_⟩
    · simp only [List.map_cons, decPasses, G.idx d hd]
      exact t1
    · rw [t3, m1, m2, hr, hv]
      have : digitsValue R.chars.length (d :: ds) = d * R.chars.length ^ ds.length + digitsValue R.chars.length ds := by
        simp only [digitsValue, List.foldl_cons]; rw [fold]; simp [digitsValue]
      rw [this, List.length_cons]
      rw [Nat.add_mod, Nat.mul_mod, Nat.mod_mod, ← Nat.mul_mod, ← Nat.add_mod]
      congr 1
      ring

theorem digitsValue_reverse (r : Nat) (l : List Nat) : digitsValue r l.reverse = Nat.ofDigits r l := by
  induction l with
  | nil => rfl
  | cons d ds ih =>
    rw [Nat.ofDigits_cons, ← ih, List.reverse_cons, digitsValue, List.foldl_append]
    simp [digitsValue]; ring

theorem countZeroChar_replicate (R : Radix) (z : Nat) (rest : Bytes)
    (h : rest.head? ≠ some (R.chars.getD 0 0)) :
    countZeroChar R (List.replicate z (R.chars.getD 0 0) ++ rest) = UInt8.ofNat z := by
  induction z with
  | zero =>
    cases rest with
    | nil => rfl
    | cons c cs =>
      have : (c == R.chars.getD 0 0) = false := by simpa using h
      simp only [List.replicate_zero, List.nil_append, countZeroChar, this]
      rfl
  | succ z ih =>
    simp only [List.replicate_succ, List.cons_append, countZeroChar, beq_self_eq_true, if_true, ih]
    simp

theorem countShift_zeros (k : Nat) (rest : Bytes) (h : rest.head? ≠ some 0) :
    countShift (zeros k ++ rest) = UInt8.ofNat k := by
  induction k with
  | zero =>
    cases rest with
    | nil => rfl
    | cons c cs =>
      have : (c == 0) = false := by simpa using h
      simp only [zeros, List.replicate_zero, List.nil_append, countShift, this]
      rfl
  | succ k ih =>
    simp only [zeros_succ, List.cons_append, countShift, beq_self_eq_true, if_true, ih]
    simp

theorem truncAlphabet_all (R : Radix) : ∀ (t rest : Bytes), (∀ c ∈ t, (strchrIdx R.chars c).isSome = true) →
    (∀ c, rest.head? = some c → (strchrIdx R.chars c).isSome = false) →
    truncAlphabet R (t ++ rest) = t := by
  intro t
  induction t with
  | nil =>
    intro rest _ h
    cases rest with
    | nil => rfl
    | cons c cs => simp [truncAlphabet, h c rfl]
  | cons c cs ih =>
    intro rest h h2
    simp only [List.cons_append, truncAlphabet, h c (by simp), if_true]
    rw [ih rest (fun x hx => h x (by simp [hx])) h2]

/-- All digits of `radixText`, most significant first. -/
theorem radixText_digits (R : Radix) (G : GoodRadix R) (a : Bytes) :
    ∃ ds : List Nat, radixText R a = (ds.map fun d => R.chars.getD d 0) ∧ (∀ d ∈ ds, d < R.chars.length) ∧
      digitsValue R.chars.length ds = beValue a := by
  have hlo := G.lo
  refine ⟨List.replicate (countZeros a) 0 ++ (Nat.digits R.chars.length (beValue a)).reverse, ?_, ?_, ?_⟩
  · simp [radixText]
  · intro d hd
    rcases List.mem_append.mp hd with hd | hd
    · have := List.eq_of_mem_replicate hd; omega
    · exact Nat.digits_lt_base (by omega) (by simpa using hd)
  · have hz : ∀ z : Nat, (List.replicate z 0).foldl (fun acc x => acc * R.chars.length + x) 0 = 0 := by
      intro z; induction z with
      | zero => rfl
      | succ z ih => simp [List.replicate_succ, ih]
    rw [digitsValue, List.foldl_append, hz]
    have := digitsValue_reverse R.chars.length (Nat.digits R.chars.length (beValue a))
    rw [digitsValue, Nat.ofDigits_digits] at this
    exact this

/-- Numeral part does not start with the zero digit. -/
theorem numeral_head (R : Radix) (G : GoodRadix R) (v : Nat) :
    ((Nat.digits R.chars.length v).reverse.map fun d => R.chars.getD d 0).head? ≠ some (R.chars.getD 0 0) := by
  have hlo := G.lo
  intro h
  by_cases hv : v = 0
  · subst hv; simp at h
  · have hne : Nat.digits R.chars.length v ≠ [] := Nat.digits_ne_nil_iff_ne_zero.mpr hv
    have hlast := Nat.getLast_digit_ne_zero R.chars.length hv
    rw [List.head?_map, List.head?_reverse, List.getLast?_eq_getLast_of_ne_nil hne] at h
    simp only [Option.map_some, Option.some.injEq] at h
    have hlt := Nat.digits_lt_base (b := R.chars.length) (by omega) (List.getLast_mem hne)
    have h1 := G.idx _ hlt
    have h2 := G.idx 0 (by omega)
    rw [h, h2] at h1
    exact hlast (by simpa using h1.symm)

/-- What decoding the text of `a` (followed by nothing or by a character outside the alphabet) gives, provided the decoder's size
estimate covers `a`: of the zero bytes in front only a number modulo 256 is removed. -/
theorem fromBase_exact (R : Radix) (G : GoodRadix R) (a rest out : Bytes)
    (hrest : ∀ c, rest.head? = some c → (strchrIdx R.chars c).isSome = false) {S : Nat} (hS : fromBaseLength R (radixText R a).length = S)
    (hsize : a.length ≤ S) :
    fromBase R (radixText R a ++ rest) out = if S - (S - a.length) % 256 > out.length then (0, zeros out.length)
      else (S - (S - a.length) % 256, (zeros (S - a.length) ++ a).drop ((S - a.length) % 256) ++ zeros (out.length - (S - (S - a.length) % 256))) := by
  obtain ⟨ds, d1, d2, d3⟩ := radixText_digits R G a
  have htr : truncAlphabet R (radixText R a ++ rest) = radixText R a := by
    apply truncAlphabet_all _ _ _ _ hrest
    intro c hc
    rw [d1] at hc
    obtain ⟨d, hd, rfl⟩ := List.mem_map.mp hc
    rw [G.idx d (d2 d hd)]; rfl
  have hzc : countZeroChar R (radixText R a) = UInt8.ofNat (countZeros a) :=
    countZeroChar_replicate R _ _ (numeral_head R G _)
  obtain ⟨t, t1, t2, t3⟩ := decPasses_spec R G ds (zeros S) d2
  obtain ⟨s1, s2⟩ := countZeros_split a
  have hzle := countZeros_le a
  have hle0 : leValue (zeros S) = 0 := by simp [leValue, zeros, List.reverse_replicate]; exact beValue_zeros S
  have hval : beValue t.reverse = beValue a := by
    have : leValue t = beValue t.reverse := rfl
    rw [← this, t3, hle0, d3]
    simp only [Nat.zero_mul, Nat.zero_add, length_zeros]
    apply Nat.mod_eq_of_lt
    exact Nat.lt_of_lt_of_le (beValue_lt a) (Nat.pow_le_pow_right (by omega) hsize)
  have htmp : t.reverse = zeros (S - a.length) ++ a := by
    apply beValue_inj
    · simp [t2]; omega
    · rw [hval, beValue_append, beValue_zeros]; simp
  unfold fromBase
  simp only [htr, hS, hzc]
  rw [d1, t1]
  simp only [htmp]
  have hdrop : (zeros (S - a.length) ++ a).drop (countZeros a % 256) = zeros (S - a.length + (countZeros a - countZeros a % 256)) ++ a.drop (countZeros a) := by
    have hm := Nat.mod_le (countZeros a) 256
    have key : ∀ (m z k : Nat) (x : Bytes), m ≤ z → (zeros k ++ (zeros z ++ x)).drop m = zeros (k + (z - m)) ++ x := by
      intro m z k x h
      have e1 : zeros k ++ (zeros z ++ x) = zeros m ++ (zeros (k + (z - m)) ++ x) := by
        simp only [← List.append_assoc, zeros, List.replicate_append_replicate]
        congr 2; omega
      rw [e1, List.drop_left' (by simp)]
    have := key (countZeros a % 256) (countZeros a) (S - a.length) (a.drop (countZeros a)) hm
    rwa [← s1] at this
  have hz8 : (UInt8.ofNat (countZeros a)).toNat = countZeros a % 256 := by simp
  rw [hz8, hdrop, countShift_zeros _ _ s2]
  have hsh : (UInt8.ofNat (S - a.length + (countZeros a - countZeros a % 256))).toNat = (S - a.length) % 256 := by
    simp only [UInt8.toNat_ofNat']; omega
  rw [hsh]

/-- Decoding the text of `a` gives `a` back, provided the decoder's size estimate covers `a` and its 8-bit counter does not wrap. -/
theorem fromBase_radixText (R : Radix) (G : GoodRadix R) (a rest out : Bytes)
    (hrest : ∀ c, rest.head? = some c → (strchrIdx R.chars c).isSome = false)
    (hsize : a.length ≤ fromBaseLength R (radixText R a).length)
    (hshift : fromBaseLength R (radixText R a).length - a.length < 256)
    (hout : a.length ≤ out.length) :
    fromBase R (radixText R a ++ rest) out = (a.length, a ++ zeros (out.length - a.length)) := by
  generalize hS : fromBaseLength R (radixText R a).length = S at *
  rw [fromBase_exact R G a rest out hrest hS hsize, Nat.mod_eq_of_lt hshift, if_neg (by omega)]
  have e1 : S - (S - a.length) = a.length := by omega
  rw [e1, List.drop_left' (by simp)]

/-- If the decoder's size estimate is below the length of the original, it cannot be recovered. -/
theorem fromBase_len_le (R : Radix) (t out : Bytes) :
    (fromBase R t out).1 ≤ fromBaseLength R (truncAlphabet R t).length := by
  unfold fromBase
  simp only []
  split
  · simp
  · split <;> simp

theorem length_mulAddPass (r : UInt16) : ∀ (ts : Bytes) (val : UInt16),
    (mulAddPass r val ts).length = ts.length := by
  intro ts
  induction ts with
  | nil => intro val; rfl
  | cons t ts ih => intro val; simp [mulAddPass, ih]

theorem length_decPasses (R : Radix) : ∀ (cs tmp t : Bytes),
    decPasses R cs tmp = some t → t.length = tmp.length := by
  intro cs
  induction cs with
  | nil => intro tmp t h; simp [decPasses] at h; rw [h]
  | cons c cs ih =>
    intro tmp t h
    rw [decPasses] at h
    split at h
    · rw [ih _ _ h, length_mulAddPass]
    · simp at h

/-- Whatever the text, the decoder writes `l` bytes and zero-fills the rest of the buffer. -/
theorem fromBase_shape (R : Radix) (t out : Bytes) :
    ∃ d : Bytes, d.length ≤ out.length ∧ fromBase R t out = (d.length, d ++ zeros (out.length - d.length)) := by
  unfold fromBase
  simp only []
  split
  · exact ⟨[], by simp, by simp⟩
  · rename_i tmp htmp
    have hl := length_decPasses R _ _ _ htmp
    split
    · exact ⟨[], by simp, by simp⟩
    · rename_i hle
      refine ⟨tmp.reverse.drop ((countShift (tmp.reverse.drop
        (countZeroChar R (truncAlphabet R t)).toNat)).toNat), ?_, ?_⟩
      · simp only [List.length_drop, List.length_reverse, hl, length_zeros]; omega
      · simp only [List.length_drop, List.length_reverse, hl, length_zeros]

/-- The decoder's size estimate covers any byte string without leading zeros. -/
theorem dec_size_ok (R : Radix) (G : GoodRadix R) (a : Bytes) (hz : countZeros a = 0) :
    a.length ≤ fromBaseLength R (radixText R a).length := by
  have hlo := G.lo
  unfold fromBaseLength
  cases a with
  | nil => simp
  | cons b bs =>
    have hb : b ≠ 0 := by
      intro h; subst h; simp [countZeros] at hz
    have hbn : 1 ≤ b.toNat := by
      rcases Nat.eq_zero_or_pos b.toNat with h | h
      · exact absurd (UInt8.toNat_inj.mp (by simpa using h)) hb
      · exact h
    have hlen : (radixText R (b :: bs)).length = (Nat.digits R.chars.length (beValue (b :: bs))).length := by
      simp [radixText, hz]
    rw [hlen]
    generalize hd : (Nat.digits R.chars.length (beValue (b :: bs))).length = d
    have h1 : beValue (b :: bs) < R.chars.length ^ d := by
      rw [← hd]; exact Nat.lt_base_pow_length_digits (by omega)
    have h2 : 256 ^ bs.length ≤ beValue (b :: bs) := by
      rw [beValue_cons]
      have : 1 * 256 ^ bs.length ≤ b.toNat * 256 ^ bs.length := Nat.mul_le_mul_right _ hbn
      omega
    have hdec := G.decDen
    have h3 : 256 ^ (bs.length * R.decDen) < 256 ^ (R.decNum * d) := by
      calc 256 ^ (bs.length * R.decDen) = (256 ^ bs.length) ^ R.decDen := by rw [pow_mul]
        _ < (R.chars.length ^ d) ^ R.decDen := Nat.pow_lt_pow_left (by omega) (by omega)
        _ = (R.chars.length ^ R.decDen) ^ d := by rw [← pow_mul, ← pow_mul, Nat.mul_comm]
        _ ≤ (256 ^ R.decNum) ^ d := Nat.pow_le_pow_left G.dec d
        _ = _ := by rw [pow_mul]
    have h4 : bs.length * R.decDen < R.decNum * d := (Nat.pow_lt_pow_iff_right (by omega)).mp h3
    have h5 : bs.length ≤ d * R.decNum / R.decDen := by
      rw [Nat.le_div_iff_mul_le hdec, Nat.mul_comm d]; omega
    simp
    omega

/-- Decoding the text of `a` gives `a` back if and only if the decoder's size estimate covers `a` and does not exceed it by more
than its 8-bit counter can count. -/
theorem fromBase_iff (R : Radix) (G : GoodRadix R) (a out : Bytes) (ho : a.length ≤ out.length) :
    fromBase R (radixText R a) out = (a.length, a ++ zeros (out.length - a.length)) ↔
      a.length ≤ fromBaseLength R (radixText R a).length ∧ fromBaseLength R (radixText R a).length < a.length + 256 := by
  constructor
  · intro h
    have h1 := fromBase_len_le R (radixText R a) out
    have h3 : truncAlphabet R (radixText R a) = radixText R a := by
      obtain ⟨ds, d1, d2, -⟩ := radixText_digits R G a
      have := truncAlphabet_all R (radixText R a) [] (by
        intro c hc
        rw [d1] at hc
        obtain ⟨d, hd, rfl⟩ := List.mem_map.mp hc
        rw [G.idx d (d2 d hd)]; rfl) (by simp)
      rwa [List.append_nil] at this
    rw [h, h3] at h1
    refine ⟨h1, ?_⟩
    have e := fromBase_exact R G a [] out (by simp) rfl h1
    rw [List.append_nil, h] at e
    by_cases hc : fromBaseLength R (radixText R a).length - (fromBaseLength R (radixText R a).length - a.length) % 256 > out.length
    · rw [if_pos hc] at e
      have hn : a = [] := List.length_eq_zero_iff.mp (congrArg Prod.fst e)
      subst hn
      show fromBaseLength R (radixText R []).length < 0 + 256
      simp [radixText, countZeros, beValue, fromBaseLength]
    · rw [if_neg hc] at e
      have := congrArg Prod.fst e
      dsimp only at this
      omega
  · rintro ⟨h1, h2⟩
    have := fromBase_radixText R G a [] out (by simp) h1 (by omega) ho
    rwa [List.append_nil] at this

/-- A lower bound for the size estimate, from a rational lower bound `p/q` of the logarithm. -/
theorem dec_size_large (R : Radix) (G : GoodRadix R) (a : Bytes) (hz : countZeros a = 0) (h0 : a ≠ []) {p q : Nat} (hq : 0 < q) (hp : R.chars.length ^ p ≤ 256 ^ q) :
    p * (a.length - 1) < q * (radixText R a).length := by
  have hlo := G.lo
  cases a with
  | nil => exact absurd rfl h0
  | cons b bs =>
    have hb : b ≠ 0 := by
      intro h; subst h; simp [countZeros] at hz
    have hbn : 1 ≤ b.toNat := by
      rcases Nat.eq_zero_or_pos b.toNat with h | h
      · exact absurd (UInt8.toNat_inj.mp (by simpa using h)) hb
      · exact h
    have hlen : (radixText R (b :: bs)).length = (Nat.digits R.chars.length (beValue (b :: bs))).length := by
      simp [radixText, hz]
    rw [hlen]
    generalize hd : (Nat.digits R.chars.length (beValue (b :: bs))).length = d
    have h1 : beValue (b :: bs) < R.chars.length ^ d := by
      rw [← hd]; exact Nat.lt_base_pow_length_digits (by omega)
    have h2 : 256 ^ bs.length ≤ beValue (b :: bs) := by
      rw [beValue_cons]
      have : 1 * 256 ^ bs.length ≤ b.toNat * 256 ^ bs.length := Nat.mul_le_mul_right _ hbn
      omega
    have h3 : R.chars.length ^ (p * bs.length) < R.chars.length ^ (q * d) := by
      calc R.chars.length ^ (p * bs.length) = (R.chars.length ^ p) ^ bs.length := by rw [pow_mul]
        _ ≤ (256 ^ q) ^ bs.length := Nat.pow_le_pow_left hp _
        _ = (256 ^ bs.length) ^ q := by rw [← pow_mul, ← pow_mul, Nat.mul_comm]
        _ < (R.chars.length ^ d) ^ q := Nat.pow_lt_pow_left (by omega) (by omega)
        _ = _ := by rw [← pow_mul, Nat.mul_comm]
    simpa using (Nat.pow_lt_pow_iff_right (by omega)).mp h3

end UB
