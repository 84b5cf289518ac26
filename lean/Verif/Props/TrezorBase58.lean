import Verif.Model.TrezorBase58
import Verif.Lemmas.Base58Decode
import Verif.Spec.Ripemd
import Verif.Props.Hash

/-
C92: base58.c.
-/

namespace UB
open Spec
namespace TrezorBase58

/-! ### Encoding -/

/-- Value of digits, least significant first. -/
def low (l : Bytes) : Nat := Nat.ofDigits 58 (l.map UInt8.toNat)

theorem low_cons (d : UInt8) (ds : Bytes) : low (d :: ds) = d.toNat + 58 * low ds := by
  unfold low
  rw [List.map_cons, Nat.ofDigits_cons]

theorem low_zero {l : Bytes} (h : ∀ d ∈ l, d = 0) : low l = 0 := by
  induction l with
  | nil => rfl
  | cons d ds ih => rw [low_cons, ih fun x hx => h x (by simp [hx]), h d (by simp)]; rfl

theorem encPass_spec (buf : Bytes) : ∀ (k c : Nat), k ≤ buf.length → (∀ d ∈ buf.drop k, d = 0) → (∀ d ∈ buf, d.toNat < 58) →
    c + 256 * low buf < 58 ^ buf.length →
    ∃ r m, encPass k c buf = .ok (r, m) ∧ r.length = buf.length ∧ m ≤ buf.length ∧ (∀ d ∈ r.drop m, d = 0) ∧ (∀ d ∈ r, d.toNat < 58) ∧
      low r = c + 256 * low buf := by
  induction buf with
  | nil =>
    intro k c hk _ _ hv
    have hk0 : k = 0 := by simpa using hk
    have hc : c = 0 := by
      have : low [] = 0 := rfl
      rw [this] at hv
      simp at hv
      exact hv
    subst hk0 hc
    exact ⟨[], 0, rfl, rfl, by simp, by simp, by simp, rfl⟩
  | cons d ds ih =>
    intro k c hk hz hd hv
    unfold encPass
    split_ifs with h0
    · obtain ⟨rfl, rfl⟩ := h0
      refine ⟨_, _, rfl, rfl, by simp, hz, hd, ?_⟩
      rw [low_zero (l := d :: ds) (by simpa using hz)]
    · rw [low_cons] at hv
      rw [List.length_cons, Nat.pow_succ] at hv
      obtain ⟨r, m, e1, e2, e3, e4, e5, e6⟩ := ih (k - 1) ((c + 256 * d.toNat) / 58) (by simp at hk; omega)
        (by
          intro x hx
          by_cases hk0 : k = 0
          · subst hk0
            exact hz x (by simp only [List.drop_zero] at hx ⊢; simp [show x ∈ ds from by simpa using hx])
          · obtain ⟨j, rfl⟩ : ∃ j, k = j + 1 := ⟨k - 1, by omega⟩
            exact hz x (by simpa using hx))
        (fun x hx => hd x (by simp [hx])) (by omega)
      dsimp only
      rw [e1, C.bind_ok, C.pure_eq]
      refine ⟨_, _, rfl, by simp [e2], by simp; omega, ?_, ?_, ?_⟩
      · simpa using e4
      · intro x hx
        rcases List.mem_cons.mp hx with rfl | hx
        · rw [UInt8.toNat_ofNat']; omega
        · exact e5 x hx
      · rw [low_cons, low_cons, e6, UInt8.toNat_ofNat']
        omega

theorem encLoop_spec (bs : Bytes) : ∀ (k : Nat) (buf : Bytes), k ≤ buf.length → (∀ d ∈ buf.drop k, d = 0) → (∀ d ∈ buf, d.toNat < 58) →
    low buf * 256 ^ bs.length + beValue bs < 58 ^ buf.length →
    ∃ r, encLoop bs k buf = .ok r ∧ (∀ d ∈ r, d.toNat < 58) ∧ low r = low buf * 256 ^ bs.length + beValue bs := by
  induction bs with
  | nil => intro k buf _ _ hd _; exact ⟨buf, rfl, hd, by simp [beValue]⟩
  | cons b bs ih =>
    intro k buf hk hz hd hv
    rw [List.length_cons, beValue_cons, Nat.pow_succ] at hv
    have e : low buf * (256 ^ bs.length * 256) + (b.toNat * 256 ^ bs.length + beValue bs) = (b.toNat + 256 * low buf) * 256 ^ bs.length + beValue bs := by ring
    rw [e] at hv
    have hp : 0 < 256 ^ bs.length := by positivity
    have hsmall : b.toNat + 256 * low buf < 58 ^ buf.length := by nlinarith
    obtain ⟨r, m, e1, e2, e3, e4, e5, e6⟩ := encPass_spec buf k b.toNat hk hz hd hsmall
    unfold encLoop
    rw [e1, C.bind_ok]
    obtain ⟨r', f1, f2, f3⟩ := ih m r (by omega) e4 e5 (by rw [e6, e2]; exact hv)
    refine ⟨r', f1, f2, ?_⟩
    rw [f3, e6, List.length_cons, beValue_cons, Nat.pow_succ, e]

theorem skipZeros_map (l : Bytes) : (skipZeros l).map UInt8.toNat = (l.map UInt8.toNat).dropWhile (· == 0) := by
  induction l with
  | nil => rfl
  | cons b bs ih =>
    unfold skipZeros
    rw [List.map_cons, List.dropWhile_cons]
    by_cases hb : b = 0
    · subst hb
      simpa using ih
    · have : b.toNat ≠ 0 := fun h => hb (UInt8.toNat_inj.mp h)
      simp [hb, this]

theorem enc_size (m : Nat) : 256 ^ m ≤ 58 ^ (m * 138 / 100 + 1) := by
  have h0 : 256 ^ 100 ≤ 58 ^ 138 := by decide +kernel
  have h1 : m * 138 ≤ (m * 138 / 100 + 1) * 100 := by omega
  have h2 : (256 ^ m) ^ 100 ≤ (58 ^ (m * 138 / 100 + 1)) ^ 100 := by
    calc (256 ^ m) ^ 100 = (256 ^ 100) ^ m := by rw [← pow_mul, ← pow_mul, Nat.mul_comm]
      _ ≤ (58 ^ 138) ^ m := Nat.pow_le_pow_left h0 m
      _ = 58 ^ (m * 138) := by rw [← pow_mul, Nat.mul_comm]
      _ ≤ 58 ^ ((m * 138 / 100 + 1) * 100) := Nat.pow_le_pow_right (by omega) h1
      _ = _ := by rw [← pow_mul]
  exact (Nat.pow_le_pow_iff_left (by omega)).mp h2

/-- C92: `b58enc` writes the base-58 text of the data and a terminator if there is room for them and otherwise only reports the size. -/
theorem C92_b58enc (out : Bytes) (sz : Nat) (data : Bytes) (ho : sz ≤ out.length) :
    b58enc out sz data = .ok (if sz < (base58Text data).length + 1 then (false, (base58Text data).length + 1, out)
      else (true, (base58Text data).length + 1, base58Text data ++ 0 :: out.drop ((base58Text data).length + 1))) := by
  have hz : ∀ n, (∀ d ∈ zeros n, d = 0) := fun n d hd => List.eq_of_mem_replicate hd
  have hv : beValue (data.drop (countZeros data)) < 58 ^ ((data.length - countZeros data) * 138 / 100 + 1) := by
    have h1 := beValue_lt (data.drop (countZeros data))
    rw [List.length_drop] at h1
    exact Nat.lt_of_lt_of_le h1 (enc_size _)
  obtain ⟨r, e1, e2, e3⟩ := encLoop_spec (data.drop (countZeros data)) 0 (zeros ((data.length - countZeros data) * 138 / 100 + 1)) (by simp)
    (by simpa using hz _) (by intro d hd; rw [hz _ d hd]; decide) (by rw [low_zero (hz _)]; simpa using hv)
  rw [low_zero (hz _), Nat.zero_mul, Nat.zero_add, beValue_drop_zeros] at e3
  have hdig : (skipZeros r.reverse).map UInt8.toNat = (Nat.digits 58 (beValue data)).reverse := by
    rw [skipZeros_map, digits_of_ofDigits 58 (by omega) _ (by
      intro d hd
      obtain ⟨x, hx, rfl⟩ := List.mem_map.mp hd
      exact e2 x (by simpa using hx)), ← e3]
    unfold low
    rw [List.map_reverse, List.reverse_reverse]
  have htext : List.replicate (countZeros data) 49 ++ (skipZeros r.reverse).map (fun d => digitsOrdered.getD d.toNat 0) = base58Text data := by
    rw [base58Text_eq, b58Num, b58, ← hdig, List.map_map]
    rfl
  have hlen : countZeros data + (skipZeros r.reverse).length = (base58Text data).length := by
    rw [← htext]; simp
  unfold b58enc
  dsimp only
  rw [e1, C.bind_ok, hlen, htext]
  by_cases hs : sz ≤ (base58Text data).length
  · rw [if_pos hs, if_pos (by omega)]; rfl
  · rw [if_neg hs, if_neg (by omega)]
    unfold store
    rw [if_pos (by simp; omega), C.bind_ok, C.pure_eq]
    simp

/-- C92: `base58_encode_check` gives the Base58Check text of every data of at most 128 bytes (leading zeros or not) with its terminator,
and the size of both, if they fit; otherwise it returns 0 and leaves the buffer as it is. -/
theorem C92_encode (H : Bytes → Bytes) (data out : Bytes) (hl : data.length ≤ 128) :
    encodeCheck H data out = .ok
      (if out.length < (base58Text (data ++ (H data).take 4)).length + 1 then (0, out)
       else ((base58Text (data ++ (H data).take 4)).length + 1,
        base58Text (data ++ (H data).take 4) ++ 0 :: out.drop ((base58Text (data ++ (H data).take 4)).length + 1))) := by
  unfold encodeCheck
  rw [if_neg (by omega), List.take_length_add_append, C92_b58enc out _ _ (Nat.le_refl _), C.bind_ok, C.pure_eq]
  by_cases h : out.length < (base58Text (data ++ (H data).take 4)).length + 1
  · rw [if_pos h, if_pos h]; rfl
  · rw [if_neg h, if_neg h]; rfl

/-- C92, limits: longer data are refused. -/
theorem C92_encode_long (H : Bytes → Bytes) (data out : Bytes) (hl : 128 < data.length) : encodeCheck H data out = .ok (0, out) := by
  unfold encodeCheck
  rw [if_pos hl]

/-! ### Decoding -/

/-- Value of words, least significant first. -/
def wlow : List UInt32 → Nat
  | [] => 0
  | w :: ws => w.toNat + 2 ^ 32 * wlow ws

theorem wlow_lt (l : List UInt32) : wlow l < 2 ^ (32 * l.length) := by
  induction l with
  | nil => simp [wlow]
  | cons w ws ih =>
    unfold wlow
    have := w.toNat_lt
    rw [List.length_cons, show 32 * (ws.length + 1) = 32 * ws.length + 32 by ring, pow_add]
    have h2 : (2 : Nat) ^ 32 = 4294967296 := by norm_num
    rw [h2] at this ⊢
    nlinarith

theorem mulAddWords_spec (l : List UInt32) : ∀ c : UInt32, c.toNat < 58 →
    (mulAddWords c l).1.length = l.length ∧ (mulAddWords c l).2.toNat < 58 ∧
      wlow (mulAddWords c l).1 + 2 ^ (32 * l.length) * (mulAddWords c l).2.toNat = wlow l * 58 + c.toNat := by
  induction l with
  | nil => intro c hc; exact ⟨rfl, hc, by simp [mulAddWords, wlow]⟩
  | cons w ws ih =>
    intro c hc
    have hw := w.toNat_lt
    have ht : (w.toUInt64 * 58 + c.toUInt64).toNat = w.toNat * 58 + c.toNat := by
      rw [UInt64.toNat_add, UInt64.toNat_mul]
      simp only [UInt32.toNat_toUInt64, show (58 : UInt64).toNat = 58 from rfl]
      omega
    have hcar : (((w.toUInt64 * 58 + c.toUInt64) &&& 0x3f00000000) >>> 32).toUInt32.toNat = (w.toNat * 58 + c.toNat) / 2 ^ 32 := by
      have e : (((w.toUInt64 * 58 + c.toUInt64) &&& 0x3f00000000) >>> 32).toNat = (w.toNat * 58 + c.toNat) / 2 ^ 32 := by
        rw [UInt64.toNat_shiftRight, UInt64.toNat_and, ht]
        simp only [show (0x3f00000000 : UInt64).toNat = 63 <<< 32 from rfl, show (32 : UInt64).toNat % 64 = 32 from rfl]
        rw [Nat.shiftRight_and_distrib, Nat.shiftLeft_shiftRight, Nat.shiftRight_eq_div_pow, show (63 : Nat) = 2 ^ 6 - 1 from rfl, Nat.and_two_pow_sub_one_eq_mod]
        omega
      rw [UInt64.toNat_toUInt32, e]
      omega
    have hlow : ((w.toUInt64 * 58 + c.toUInt64) &&& 0xffffffff).toUInt32.toNat = (w.toNat * 58 + c.toNat) % 2 ^ 32 := by
      rw [UInt64.toNat_toUInt32, UInt64.toNat_and, ht, show (0xffffffff : UInt64).toNat = 2 ^ 32 - 1 from rfl, Nat.and_two_pow_sub_one_eq_mod]
      omega
    unfold mulAddWords
    dsimp only
    obtain ⟨h1, h2, h3⟩ := ih _ (show (((w.toUInt64 * 58 + c.toUInt64) &&& 0x3f00000000) >>> 32).toUInt32.toNat < 58 by rw [hcar]; omega)
    refine ⟨by simp [h1], h2, ?_⟩
    rw [hcar] at h3
    unfold wlow
    rw [hlow, List.length_cons, show 32 * (ws.length + 1) = 32 + 32 * ws.length by ring, pow_add]
    generalize (mulAddWords (((w.toUInt64 * 58 + c.toUInt64) &&& 0x3f00000000) >>> 32).toUInt32 ws).1 = r at *
    generalize (mulAddWords (((w.toUInt64 * 58 + c.toUInt64) &&& 0x3f00000000) >>> 32).toUInt32 ws).2.toNat = cc at *
    generalize 2 ^ (32 * ws.length) = P at *
    have e1 : (w.toNat * 58 + c.toNat) % 2 ^ 32 + 2 ^ 32 * wlow r + 2 ^ 32 * P * cc = (w.toNat * 58 + c.toNat) % 2 ^ 32 + 2 ^ 32 * (wlow r + P * cc) := by ring
    rw [e1, h3]
    omega

/-- The digits of the map are the positions in the alphabet. -/
theorem map_char : ∀ d < 58, (base58.chars.getD d 0) &&& 0x80 = 0 ∧ digitsMap.getD (base58.chars.getD d 0).toNat (-1) = (d : Int) := by
  decide +kernel

theorem map_other : ∀ c : UInt8, c ∉ base58.chars → c &&& 0x80 ≠ 0 ∨ digitsMap.getD c.toNat (-1) = -1 := by
  apply forall_byte; decide +kernel

/-- Words which are a number of `n` bytes: the mask of the first word. -/
def maskOf (n : Nat) : UInt32 := if n % 4 ≠ 0 then 0xffffffff <<< UInt32.ofNat (n % 4 * 8) else 0

theorem and_mask : ∀ (k : Nat), 1 ≤ k → k ≤ 3 → ∀ w : UInt32, w &&& (0xffffffff <<< UInt32.ofNat (k * 8)) = 0 ↔ w.toNat < 256 ^ k := by
  intro k h1 h3 w
  have hw := w.toNat_lt
  have key : ∀ s : Nat, s < 32 → (w.toNat &&& (2 ^ 32 - 2 ^ s)) = w.toNat / 2 ^ s * 2 ^ s := by
    intro s hs
    have e : 2 ^ 32 - 2 ^ s = (2 ^ (32 - s) - 1) <<< s := by
      rw [Nat.shiftLeft_eq, Nat.sub_mul, ← pow_add, Nat.one_mul]
      congr 2
      omega
    rw [e]
    apply Nat.eq_of_testBit_eq
    intro i
    rw [Nat.testBit_and, Nat.testBit_shiftLeft, ← Nat.shiftRight_eq_div_pow, ← Nat.shiftLeft_eq, Nat.testBit_shiftLeft, Nat.testBit_shiftRight,
      Nat.testBit_two_pow_sub_one]
    by_cases hi : s ≤ i
    · rw [show s + (i - s) = i by omega]
      by_cases h32 : i < 32
      · simp [hi, show i - s < 32 - s by omega]
      · have : w.toNat.testBit i = false := Nat.testBit_lt_two_pow (Nat.lt_of_lt_of_le hw (Nat.pow_le_pow_right (by omega) (by omega)))
        simp [this]
    · simp [hi]
  rw [← UInt32.toNat_inj, UInt32.toNat_and]
  have hk : k = 1 ∨ k = 2 ∨ k = 3 := by omega
  rcases hk with rfl | rfl | rfl
  · rw [show (0xffffffff <<< UInt32.ofNat (1 * 8) : UInt32).toNat = 2 ^ 32 - 2 ^ 8 by decide, key 8 (by omega)]
    simp only [UInt32.toNat_zero]
    omega
  · rw [show (0xffffffff <<< UInt32.ofNat (2 * 8) : UInt32).toNat = 2 ^ 32 - 2 ^ 16 by decide, key 16 (by omega)]
    simp only [UInt32.toNat_zero]
    omega
  · rw [show (0xffffffff <<< UInt32.ofNat (3 * 8) : UInt32).toNat = 2 ^ 32 - 2 ^ 24 by decide, key 24 (by omega)]
    simp only [UInt32.toNat_zero]
    omega

theorem wlow_concat (l : List UInt32) (w : UInt32) : wlow (l ++ [w]) = wlow l + 2 ^ (32 * l.length) * w.toNat := by
  induction l with
  | nil => simp [wlow]
  | cons v vs ih =>
    rw [List.cons_append]
    unfold wlow
    rw [ih, List.length_cons, show 32 * (vs.length + 1) = 32 + 32 * vs.length by ring, pow_add]
    ring

/-- The check of the first word. -/
theorem mask_iff (n : Nat) (hn : n ≠ 0) (o : List UInt32) (ho : o.length = (n + 3) / 4) : o.getLastD 0 &&& maskOf n = 0 ↔ wlow o < 256 ^ n := by
  have hl := wlow_lt o
  have e256 : ∀ m : Nat, (256 : Nat) ^ m = 2 ^ (8 * m) := fun m => by rw [show (256 : Nat) = 2 ^ 8 from rfl, ← pow_mul]
  unfold maskOf
  split_ifs with h
  · have hne : o ≠ [] := by
      intro h0
      rw [h0] at ho
      simp at ho
      omega
    obtain ⟨l, w, rfl⟩ : ∃ l w, o = l ++ [w] := ⟨o.dropLast, o.getLast hne, (List.dropLast_append_getLast hne).symm⟩
    rw [List.length_append, List.length_singleton] at ho
    rw [show (l ++ [w]).getLastD 0 = w by simp, and_mask (n % 4) (by omega) (by omega), wlow_concat]
    have hl := wlow_lt l
    rw [show n = 4 * l.length + n % 4 by omega, pow_add, show (4 * l.length + n % 4) % 4 = n % 4 by omega, e256 (4 * l.length),
      show 8 * (4 * l.length) = 32 * l.length by ring]
    generalize 2 ^ (32 * l.length) = P at *
    generalize 256 ^ (n % 4) = Q at *
    constructor
    · intro hw
      nlinarith
    · intro hw
      by_contra hc
      have : P * Q ≤ P * w.toNat := Nat.mul_le_mul_left _ (by omega)
      omega
  · simp only [UInt32.and_zero, true_iff]
    rw [e256, show 8 * n = 32 * o.length by omega]
    exact hl

theorem digitsValue_cons (d : Nat) (ds : List Nat) (r : Nat) : digitsValue r (d :: ds) = d * r ^ ds.length + digitsValue r ds := by
  have key : ∀ (l : List Nat) (a : Nat), l.foldl (fun acc x => acc * r + x) a = a * r ^ l.length + digitsValue r l := by
    intro l
    induction l with
    | nil => intro a; simp [digitsValue]
    | cons x xs ih =>
      intro a
      have e : digitsValue r (x :: xs) = xs.foldl (fun acc x => acc * r + x) x := by rw [digitsValue, List.foldl_cons]; simp
      rw [List.foldl_cons, ih, e, ih x, List.length_cons, pow_succ]
      ring
  rw [digitsValue, List.foldl_cons, key]
  simp

/-- Reading digits succeeds exactly if the number fits into `n` bytes. -/
theorem readDigits_spec (n : Nat) (hn : n ≠ 0) (ds : List Nat) : ∀ o : List UInt32, (∀ d ∈ ds, d < 58) → o.length = (n + 3) / 4 → wlow o < 256 ^ n →
    if wlow o * 58 ^ ds.length + digitsValue 58 ds < 256 ^ n then
      ∃ o', readDigits (maskOf n) (b58 ds) o = some o' ∧ o'.length = (n + 3) / 4 ∧ wlow o' = wlow o * 58 ^ ds.length + digitsValue 58 ds
    else readDigits (maskOf n) (b58 ds) o = none := by
  induction ds with
  | nil =>
    intro o _ ho hv
    rw [if_pos (by simpa [digitsValue] using hv)]
    exact ⟨o, rfl, ho, by simp [digitsValue]⟩
  | cons d ds ih =>
    intro o hd ho hv
    have hd58 := hd d (by simp)
    obtain ⟨m1, m2⟩ := map_char d hd58
    have hc : (UInt32.ofNat ((d : Int).toNat)).toNat = d := by simp; omega
    obtain ⟨s1, s2, s3⟩ := mulAddWords_spec o (UInt32.ofNat ((d : Int).toNat)) (by rw [hc]; exact hd58)
    rw [hc] at s3
    have e : wlow o * 58 ^ (d :: ds).length + digitsValue 58 (d :: ds) = (wlow o * 58 + d) * 58 ^ ds.length + digitsValue 58 ds := by
      rw [digitsValue_cons, List.length_cons, pow_succ]; ring
    have hp : 0 < 58 ^ ds.length := by positivity
    rw [e]
    have e256 : (256 : Nat) ^ n ≤ 2 ^ (32 * o.length) := by
      rw [show (256 : Nat) = 2 ^ 8 from rfl, ← pow_mul]
      exact Nat.pow_le_pow_right (by omega) (by omega)
    have hstep : readDigits (maskOf n) (b58 (d :: ds)) o =
        if (mulAddWords (UInt32.ofNat ((d : Int).toNat)) o).2 ≠ 0 then none
        else if (mulAddWords (UInt32.ofNat ((d : Int).toNat)) o).1.getLastD 0 &&& maskOf n ≠ 0 then none
        else readDigits (maskOf n) (b58 ds) (mulAddWords (UInt32.ofNat ((d : Int).toNat)) o).1 := by
      show readDigits (maskOf n) (base58.chars.getD d 0 :: b58 ds) o = _
      rw [readDigits]
      dsimp only
      rw [m2, if_neg (by rw [m1]; simp), if_neg (by omega)]
    rw [hstep]
    by_cases hc2 : (mulAddWords (UInt32.ofNat ((d : Int).toNat)) o).2 = 0
    · rw [hc2] at s3
      simp only [UInt32.toNat_zero, Nat.mul_zero, Nat.add_zero] at s3
      have hm := mask_iff n hn _ (s1.trans ho)
      rw [s3] at hm
      rw [if_neg (not_not.mpr hc2)]
      by_cases hfit : wlow o * 58 + d < 256 ^ n
      · rw [if_neg (not_not.mpr (hm.mpr hfit))]
        have := ih _ (fun x hx => hd x (by simp [hx])) (s1.trans ho) (by rw [s3]; exact hfit)
        rw [s3] at this
        exact this
      · rw [if_pos (show _ ≠ _ from fun h => hfit (hm.mp h)), if_neg (by nlinarith)]
    · have : (mulAddWords (UInt32.ofNat ((d : Int).toNat)) o).2.toNat ≠ 0 := fun h => hc2 (UInt32.toNat_inj.mp h)
      have hbig : 256 ^ n ≤ wlow o * 58 + d := by
        rw [← s3]
        have : 2 ^ (32 * o.length) * 1 ≤ 2 ^ (32 * o.length) * (mulAddWords (UInt32.ofNat ((d : Int).toNat)) o).2.toNat := Nat.mul_le_mul_left _ (by omega)
        omega
      rw [if_pos hc2, if_neg (by nlinarith)]

theorem readDigits_invalid (mask : UInt32) (t : Bytes) : ∀ o : List UInt32, (∃ c ∈ t, c ∉ base58.chars) → readDigits mask t o = none := by
  induction t with
  | nil => intro o ⟨c, hc, _⟩; cases hc
  | cons ch t ih =>
    intro o ⟨c, hc, hn⟩
    unfold readDigits
    dsimp only
    by_cases hch : ch ∈ base58.chars
    · have ht : ∃ c ∈ t, c ∉ base58.chars := by
        rcases List.mem_cons.mp hc with rfl | hc
        · exact absurd hch hn
        · exact ⟨c, hc, hn⟩
      split_ifs <;> first | rfl | exact ih _ ht
    · rcases map_other ch hch with h | h
      · rw [if_pos h]
      · split_ifs <;> first | rfl | contradiction

theorem wordBytes_value (w : UInt32) : (wordBytes w).length = 4 ∧ beValue (wordBytes w) = w.toNat := by
  refine ⟨rfl, ?_⟩
  have hw := w.toNat_lt
  unfold wordBytes beValue
  simp only [List.foldl_cons, List.foldl_nil, UInt32.toNat_toUInt8, UInt32.toNat_and, UInt32.toNat_shiftRight, Nat.shiftRight_eq_div_pow,
    show (0xff : UInt32).toNat = 2 ^ 8 - 1 from rfl, Nat.and_two_pow_sub_one_eq_mod, show (24 : UInt32).toNat % 32 = 24 from rfl,
    show (16 : UInt32).toNat % 32 = 16 from rfl, show (8 : UInt32).toNat % 32 = 8 from rfl]
  omega

theorem headBytes_value (k : Nat) (h1 : 1 ≤ k) (h3 : k ≤ 3) (w : UInt32) (hw : w.toNat < 256 ^ k) : (headBytes w k).length = k ∧ beValue (headBytes w k) = w.toNat := by
  have key : ∀ s : Nat, ∀ x : Nat, ((x &&& ((2 ^ 8 - 1) <<< s)) >>> s) = x / 2 ^ s % 2 ^ 8 := by
    intro s x
    rw [Nat.shiftRight_and_distrib, Nat.shiftLeft_shiftRight, Nat.shiftRight_eq_div_pow, Nat.and_two_pow_sub_one_eq_mod]
  have hk : k = 1 ∨ k = 2 ∨ k = 3 := by omega
  rcases hk with rfl | rfl | rfl <;>
  · refine ⟨rfl, ?_⟩
    unfold headBytes beValue
    simp only [List.foldl_cons, List.foldl_nil, UInt32.toNat_toUInt8, UInt32.toNat_and, UInt32.toNat_shiftRight,
      show (0xff0000 : UInt32).toNat = (2 ^ 8 - 1) <<< 16 from rfl, show (0xff00 : UInt32).toNat = (2 ^ 8 - 1) <<< 8 from rfl,
      show (16 : UInt32).toNat % 32 = 16 from rfl, show (8 : UInt32).toNat % 32 = 8 from rfl, key,
      show (0xff : UInt32).toNat = 2 ^ 8 - 1 from rfl, Nat.and_two_pow_sub_one_eq_mod]
    omega

theorem flatMap_value (l : List UInt32) : (l.reverse.flatMap wordBytes).length = 4 * l.length ∧ beValue (l.reverse.flatMap wordBytes) = wlow l := by
  induction l with
  | nil => exact ⟨rfl, rfl⟩
  | cons w ws ih =>
    obtain ⟨h1, h2⟩ := wordBytes_value w
    rw [List.reverse_cons, List.flatMap_append]
    simp only [List.flatMap_cons, List.flatMap_nil, List.append_nil, List.length_append, List.length_cons, ih.1, h1, beValue_append, ih.2, h2]
    refine ⟨by omega, ?_⟩
    rw [wlow.eq_2, Nat.add_comm, Nat.mul_comm]
    norm_num

/-- The bytes written are the number in `n` bytes. -/
theorem binBytes_value (n : Nat) (hn : n ≠ 0) (o : List UInt32) (ho : o.length = (n + 3) / 4) (hv : wlow o < 256 ^ n) :
    (binBytes (n % 4) o.reverse).length = n ∧ beValue (binBytes (n % 4) o.reverse) = wlow o := by
  have hm := (mask_iff n hn o ho).mpr hv
  have hne : o ≠ [] := by
    intro h0
    rw [h0] at ho
    simp at ho
    omega
  obtain ⟨l, w, rfl⟩ : ∃ l w, o = l ++ [w] := ⟨o.dropLast, o.getLast hne, (List.dropLast_append_getLast hne).symm⟩
  rw [List.length_append, List.length_singleton] at ho
  have hrev : (l ++ [w]).reverse = w :: l.reverse := by simp
  rw [hrev]
  unfold binBytes
  obtain ⟨f1, f2⟩ := flatMap_value l
  split_ifs with h4
  · obtain ⟨g1, g2⟩ := flatMap_value (l ++ [w])
    rw [hrev] at g1 g2
    refine ⟨?_, g2⟩
    rw [g1, List.length_append, List.length_singleton]
    omega
  · unfold maskOf at hm
    rw [if_pos h4, show (l ++ [w]).getLastD 0 = w by simp, and_mask (n % 4) (by omega) (by omega)] at hm
    obtain ⟨g1, g2⟩ := headBytes_value (n % 4) (by omega) (by omega) w hm
    rw [List.length_append, f1, g1, beValue_append, f1, f2, g2, wlow_concat]
    refine ⟨by omega, ?_⟩
    rw [show (256 : Nat) = 2 ^ 8 from rfl, ← pow_mul, show 8 * (4 * l.length) = 32 * l.length by ring]
    ring

theorem canonical_spec (zc : Nat) (bin : Bytes) : ∀ (i sz : Nat), bin.length ≤ sz →
    canonical zc i bin sz = if countZeros bin < bin.length ∧ i + countZeros bin < zc then (false, sz - countZeros bin) else (true, sz - countZeros bin + zc) := by
  induction bin with
  | nil => intro i sz _; simp [canonical, countZeros]
  | cons b bs ih =>
    intro i sz hs
    rw [List.length_cons] at hs
    unfold canonical
    by_cases hb : b = 0
    · subst hb
      have hz : countZeros (0 :: bs) = countZeros bs + 1 := by simp [countZeros]
      rw [if_neg (by simp), ih _ _ (by omega), hz, List.length_cons]
      have e1 : (countZeros bs < bs.length ∧ i + 1 + countZeros bs < zc) ↔ (countZeros bs + 1 < bs.length + 1 ∧ i + (countZeros bs + 1) < zc) := by omega
      have e2 : sz - 1 - countZeros bs = sz - (countZeros bs + 1) := by omega
      rw [e2]
      simp only [e1]
    · have hz : countZeros (b :: bs) = 0 := by simp [countZeros, hb]
      rw [if_pos hb, hz, List.length_cons, Nat.add_zero, Nat.sub_zero]
      by_cases h : zc > i
      · rw [if_pos h, if_pos ⟨by omega, h⟩]
      · rw [if_neg h, if_neg (by omega)]

theorem countOnes_eq (z : Nat) (r : Bytes) (h : r.head? ≠ some 49) : countOnes (List.replicate z 49 ++ r) = z := by
  induction z with
  | zero =>
    cases r with
    | nil => rfl
    | cons c cs =>
      have : c ≠ 49 := by simpa using h
      simp [countOnes, this]
  | succ z ih => rw [List.replicate_succ, List.cons_append, countOnes, if_pos rfl, ih]

theorem b58Num_value (v : Nat) : digitsValue 58 (Nat.digits 58 v).reverse = v := by
  rw [digitsValue_reverse, Nat.ofDigits_digits]

theorem ones_inj {z z' : Nat} {r r' : Bytes} (h : r.head? ≠ some 49) (h' : r'.head? ≠ some 49) (e : List.replicate z 49 ++ r = List.replicate z' 49 ++ r') :
    z = z' ∧ r = r' := by
  have h1 := congrArg countOnes e
  rw [countOnes_eq z r h, countOnes_eq z' r' h'] at h1
  subst h1
  exact ⟨rfl, List.append_cancel_left e⟩

theorem b58_inj {ds ds' : List Nat} (h : ∀ d ∈ ds, d < 58) (h' : ∀ d ∈ ds', d < 58) (e : b58 ds = b58 ds') : ds = ds' := by
  induction ds generalizing ds' with
  | nil => cases ds' with
    | nil => rfl
    | cons d ds' => cases e
  | cons d ds ih => cases ds' with
    | nil => cases e
    | cons d' ds' =>
      have e' : base58.chars.getD d 0 = base58.chars.getD d' 0 ∧ b58 ds = b58 ds' := List.cons.inj e
      have h1 := (map_char d (h d (by simp))).2
      have h2 := (map_char d' (h' d' (by simp))).2
      rw [e'.1, h2] at h1
      rw [ih (fun x hx => h x (by simp [hx])) (fun x hx => h' x (by simp [hx])) e'.2, show d = d' by omega]

theorem digits58_lt (v : Nat) : ∀ d ∈ (Nat.digits 58 v).reverse, d < 58 := fun d hd => Nat.digits_lt_base (by omega) (by simpa using hd)

theorem b58Num_inj {v v' : Nat} (e : b58Num v = b58Num v') : v = v' := by
  have := b58_inj (digits58_lt v) (digits58_lt v') e
  rw [← b58Num_value v, this, b58Num_value]

/-- Every text of the alphabet. -/
theorem text_cases (t : Bytes) (h : ∀ c ∈ t, c ∈ base58.chars) : ∃ z v, t = List.replicate z 49 ++ b58Num v := by
  obtain ⟨ds, rfl, hd⟩ := b58_digits t h
  exact ⟨_, _, b58_num ds hd⟩

theorem text_valid (z v : Nat) : ∀ c ∈ List.replicate z 49 ++ b58Num v, c ∈ base58.chars := by
  intro c hc
  rcases List.mem_append.mp hc with hc | hc
  · rw [List.eq_of_mem_replicate hc]; decide
  · obtain ⟨d, hd, rfl⟩ := List.mem_map.mp hc
    have : d < 58 := digits58_lt v d hd
    rw [List.getD_eq_getElem _ _ (show d < base58.chars.length from this)]
    exact List.getElem_mem _

theorem tobin_invalid (bin : Bytes) (n : Nat) (hn : n ≠ 0) (t : Bytes) (h : ∃ c ∈ t, c ∉ base58.chars) : b58tobin bin n t = .ok (false, n, bin) := by
  have hd : ∃ c ∈ t.drop (countOnes t), c ∉ base58.chars := by
    clear hn
    induction t with
    | nil => obtain ⟨c, hc, _⟩ := h; cases hc
    | cons x t ih =>
      unfold countOnes
      split_ifs with hx
      · obtain ⟨c, hc, hn⟩ := h
        rcases List.mem_cons.mp hc with rfl | hc
        · subst hx; exact absurd (by decide) hn
        · simpa using ih ⟨c, hc, hn⟩
      · simpa using h
  unfold b58tobin
  rw [if_neg hn]
  dsimp only
  rw [readDigits_invalid _ _ _ hd]

/-- `b58tobin` on a text of the alphabet. -/
theorem tobin_valid (bin : Bytes) (n : Nat) (hn : n ≠ 0) (hb : n ≤ bin.length) (z v : Nat) :
    (256 ^ n ≤ v ∧ b58tobin bin n (List.replicate z 49 ++ b58Num v) = .ok (false, n, bin)) ∨
    (v < 256 ^ n ∧ ∃ B : Bytes, B.length = n ∧ beValue B = v ∧ b58tobin bin n (List.replicate z 49 ++ b58Num v) =
      .ok (if countZeros B < n ∧ countZeros B < z then (false, n - countZeros B, B ++ bin.drop n) else (true, n - countZeros B + z, B ++ bin.drop n))) := by
  have hw0 : wlow (List.replicate ((n + 3) / 4) 0) = 0 := by
    generalize (n + 3) / 4 = k
    induction k with
    | zero => rfl
    | succ k ih => rw [List.replicate_succ, wlow, ih]; rfl
  have h := readDigits_spec n hn (Nat.digits 58 v).reverse (List.replicate ((n + 3) / 4) 0) (digits58_lt v) (by simp) (by rw [hw0]; positivity)
  rw [hw0, Nat.zero_mul, Nat.zero_add, b58Num_value] at h
  unfold b58tobin
  rw [if_neg hn]
  dsimp only
  rw [countOnes_eq z _ (b58Num_head v), List.drop_left' (by simp)]
  by_cases hv : v < 256 ^ n
  · rw [if_pos hv] at h
    obtain ⟨o, o1, o2, o3⟩ := h
    have o1' : readDigits (if n % 4 ≠ 0 then 0xffffffff <<< UInt32.ofNat (n % 4 * 8) else 0) (b58Num v) (List.replicate ((n + 3) / 4) 0) = some o := o1
    rw [o1']
    obtain ⟨b1, b2⟩ := binBytes_value n hn o o2 (by rw [o3]; exact hv)
    refine .inr ⟨hv, _, b1, b2.trans o3, ?_⟩
    dsimp only
    unfold store
    rw [if_pos (by omega), C.bind_ok, C.pure_eq]
    simp only [List.take_zero, List.nil_append, Nat.zero_add]
    rw [b1, List.take_left' b1, canonical_spec z _ 0 n (by omega), b1]
    simp only [Nat.zero_add]
    split_ifs <;> rfl
  · rw [if_neg hv] at h
    have h' : readDigits (if n % 4 ≠ 0 then 0xffffffff <<< UInt32.ofNat (n % 4 * 8) else 0) (b58Num v) (List.replicate ((n + 3) / 4) 0) = none := h
    rw [h']
    exact .inl ⟨by omega, rfl⟩

theorem countZeros_append (k : Nat) (a : Bytes) : countZeros (zeros k ++ a) = k + countZeros a := by
  induction k with
  | zero => simp [zeros]
  | succ k ih => rw [zeros_succ, List.cons_append, countZeros, if_pos (by rfl), ih]; omega

theorem countZeros_full {a : Bytes} (h : countZeros a = a.length) : beValue a = 0 := by
  have := (countZeros_split a).1
  rw [h, List.drop_length, List.append_nil] at this
  rw [this, beValue_zeros]

/-- A byte string of at most `n` bytes with the given text, seen in `n` bytes. -/
theorem text_in {a B : Bytes} {z v : Nat} (ht : base58Text a = List.replicate z 49 ++ b58Num v) (hB : beValue B = v) (hl : a.length ≤ B.length) :
    countZeros a = z ∧ beValue a = v ∧ B = zeros (B.length - a.length) ++ a := by
  rw [base58Text_eq] at ht
  obtain ⟨h1, h2⟩ := ones_inj (b58Num_head _) (b58Num_head _) ht
  have h3 := b58Num_inj h2
  refine ⟨h1, h3, beValue_inj (by simp; omega) ?_⟩
  rw [beValue_append, beValue_zeros, h3, hB]
  simp

theorem zeroRun_ok (z : Nat) (b : UInt8) (hb : b ≠ 0) (bs t : Bytes) (ht : t.head? ≠ some 49) : zeroRun (zeros z ++ b :: bs) (List.replicate z 49 ++ t) = .ok false := by
  induction z with
  | zero =>
    show zeroRun (b :: bs) t = _
    rw [zeroRun, if_neg (by simp [hb])]
    simp [hb, ht]
  | succ z ih =>
    rw [zeros_succ, List.cons_append, List.replicate_succ, List.cons_append, zeroRun, if_pos ⟨rfl, rfl⟩]
    exact ih

theorem zeroRun_ub (z : Nat) : zeroRun (zeros z) (List.replicate z 49) = .ub := by
  induction z with
  | zero => rfl
  | succ z ih =>
    rw [zeros_succ, List.replicate_succ, zeroRun, if_pos ⟨rfl, rfl⟩]
    exact ih

/-- C92: `base58_decode_check` accepts exactly the Base58Check texts of payloads of at most `datalen` bytes, with any number of zero
bytes in front, and gives back the payload; all other texts which do not consist of ones only are refused and leave the buffer as it is. -/
theorem C92_decode (H : Bytes → Bytes) (hH : ∀ x, 4 ≤ (H x).length) (t data : Bytes) (datalen : Nat) (hd : datalen ≤ 128) (hl : datalen ≤ data.length)
    (hns : ∃ c ∈ t, c ≠ 49) :
    (∃ p, p.length ≤ datalen ∧ t = base58Text (p ++ (H p).take 4) ∧ decodeCheck H t data datalen = .ok (p.length, p ++ data.drop p.length)) ∨
    ((∀ p, p.length ≤ datalen → t ≠ base58Text (p ++ (H p).take 4)) ∧ decodeCheck H t data datalen = .ok (0, data)) := by
  have hck : ∀ p, ((H p).take 4).length = 4 := fun p => by rw [List.length_take]; have := hH p; omega
  have hzl : datalen + 4 ≤ (zeros (datalen + 4)).length := by simp
  unfold decodeCheck
  rw [if_neg (by omega)]
  by_cases hv : ∀ c ∈ t, c ∈ base58.chars
  · obtain ⟨z, v, rfl⟩ := text_cases t hv
    have hv0 : v ≠ 0 := by
      rintro rfl
      obtain ⟨c, hc, hc'⟩ := hns
      rw [show b58Num 0 = [] from by simp [b58Num, b58], List.append_nil] at hc
      exact hc' (List.eq_of_mem_replicate hc)
    rcases tobin_valid (zeros (datalen + 4)) (datalen + 4) (by omega) hzl z v with ⟨hbig, e⟩ | ⟨hsm, B, b1, b2, e⟩
    · refine .inr ⟨fun p hp ht => ?_, by rw [e]; rfl⟩
      obtain ⟨z2, v2, -⟩ : ∃ z2 v2, base58Text (p ++ (H p).take 4) = List.replicate z2 49 ++ b58Num v2 := ⟨_, _, base58Text_eq _⟩
      rw [base58Text_eq] at ht
      have h2 := b58Num_inj (ones_inj (b58Num_head _) (b58Num_head _) ht).2
      have h3 := beValue_lt (p ++ (H p).take 4)
      have h4 : 256 ^ (p ++ (H p).take 4).length ≤ 256 ^ (datalen + 4) := Nat.pow_le_pow_right (by omega) (by rw [List.length_append, hck]; omega)
      omega
    · have hzB : countZeros B < datalen + 4 := by
        have := countZeros_le B
        rcases Nat.lt_or_ge (countZeros B) (datalen + 4) with h | h
        · exact h
        · exact absurd ((countZeros_full (by omega)).symm.trans b2) (Ne.symm hv0)
      have hno : (zeros (datalen + 4)).drop (datalen + 4) = [] := by rw [List.drop_eq_nil_iff]; simp
      rw [hno, List.append_nil] at e
      -- a payload with this text lies at the end of `B`
      have hat : ∀ p : Bytes, p.length ≤ datalen → List.replicate z 49 ++ b58Num v = base58Text (p ++ (H p).take 4) →
          z ≤ countZeros B ∧ B.drop (countZeros B - z) = p ++ (H p).take 4 := by
        intro p hp ht
        have hpl : (p ++ (H p).take 4).length ≤ B.length := by rw [List.length_append, hck]; omega
        obtain ⟨c1, c2, c3⟩ := text_in ht.symm b2 hpl
        have c4 : countZeros B = B.length - (p ++ (H p).take 4).length + z := by
          conv => lhs; rw [c3]
          rw [countZeros_append, c1]
        refine ⟨by omega, ?_⟩
        rw [c4, Nat.add_sub_cancel]
        conv => lhs; rw [c3]
        rw [List.drop_left' (by simp)]
      rw [e]
      by_cases hz : countZeros B < z
      · rw [if_pos ⟨hzB, hz⟩]
        exact .inr ⟨fun p hp ht => by have := (hat p hp ht).1; omega, rfl⟩
      · rw [if_neg (fun h => hz h.2), C.bind_ok]
        dsimp only
        rw [if_neg (by simp), if_neg (by omega), show datalen + 4 - (datalen + 4 - countZeros B + z) = countZeros B - z by omega]
        -- the bytes from `nd` on
        obtain ⟨s1, s2⟩ := countZeros_split B
        obtain ⟨b, bs, hbs⟩ : ∃ b bs, B.drop (countZeros B) = b :: bs := by
          cases h : B.drop (countZeros B) with
          | nil => rw [List.drop_eq_nil_iff] at h; omega
          | cons b bs => exact ⟨b, bs, rfl⟩
        have hb0 : b ≠ 0 := by rw [hbs] at s2; simpa using s2
        have hnd : B.drop (countZeros B - z) = zeros z ++ b :: bs := by
          rw [hbs] at s1
          generalize countZeros B = k at s1 hz
          rw [s1, List.drop_append_of_le_length (by simp)]
          congr 1
          unfold zeros
          rw [List.drop_replicate]
          congr 1
          omega
        have hndl : (B.drop (countZeros B - z)).length = datalen + 4 - countZeros B + z := by rw [List.length_drop]; omega
        have htext : base58Text (B.drop (countZeros B - z)) = List.replicate z 49 ++ b58Num v := by
          rw [base58Text_eq]
          have h1 : countZeros (B.drop (countZeros B - z)) = z := by
            rw [hnd, countZeros_append, countZeros_of_head (by simpa using hb0)]; rfl
          have h2 : beValue (B.drop (countZeros B - z)) = v := by
            rw [hbs] at s1
            generalize countZeros B = k at s1 hnd
            rw [← b2, hnd, s1, beValue_append, beValue_append, beValue_zeros, beValue_zeros]
          rw [h1, h2]
        unfold b58check
        generalize hn : B.drop (countZeros B - z) = nd at *
        generalize hm : datalen + 4 - countZeros B + z = m at *
        by_cases h4 : m < 4
        · rw [if_pos h4, C.bind_ok, if_pos (by decide)]
          refine .inr ⟨fun p hp ht => ?_, rfl⟩
          have := (hat p hp ht).2
          rw [this, List.length_append, hck] at hndl
          omega
        · rw [if_neg h4]
          unfold load
          rw [if_pos (by omega), if_pos (by omega), C.bind_ok, C.bind_ok]
          rw [List.drop_zero, List.take_of_length_le (l := nd.drop (m - 4)) (by rw [List.length_drop]; omega)]
          by_cases hsum : nd.drop (m - 4) = (H (nd.take (m - 4))).take 4
          · rw [if_neg (not_not.mpr hsum), hnd, zeroRun_ok z b hb0 bs _ (b58Num_head v), C.bind_ok]
            rw [← hnd]
            simp only [Bool.false_eq_true, if_false, C.pure_eq, C.bind_ok]
            rw [if_neg (by omega)]
            unfold store
            have hpl : (nd.take (m - 4)).length = m - 4 := by rw [List.length_take]; omega
            rw [hpl, if_pos (by omega), C.bind_ok]
            refine .inl ⟨nd.take (m - 4), by omega, ?_, ?_⟩
            · rw [← hsum, List.take_append_drop, htext]
            · rw [hpl]; simp
          · rw [if_pos hsum]
            simp only [C.pure_eq, C.bind_ok]
            rw [if_pos (by decide)]
            refine .inr ⟨fun p hp ht => hsum ?_, rfl⟩
            have hp' := (hat p hp ht).2
            have hpl : p.length = m - 4 := by rw [hp', List.length_append, hck] at hndl; omega
            rw [hp', List.drop_left' hpl, List.take_left' hpl]
  · push Not at hv
    rw [tobin_invalid _ _ (by omega) _ hv]
    refine .inr ⟨fun p hp ht => ?_, rfl⟩
    obtain ⟨c, hc, hc'⟩ := hv
    rw [ht, base58Text_eq] at hc
    exact hc' (text_valid _ _ c hc)

/-- C92, limits: texts of ones only.  If there are more of them than bytes in the buffer, `b58tobin` nevertheless reports success, with a
size larger than the buffer, and `base58_decode_check` uses memory in front of it; if the checksum of zeros were zero, the memory behind it. -/
theorem C92_decode_ones (H : Bytes → Bytes) (k : Nat) (data : Bytes) (datalen : Nat) (hd : datalen ≤ 128) :
    decodeCheck H (List.replicate k 49) data datalen =
      if datalen + 4 < k ∨ (4 ≤ k ∧ (H (zeros (k - 4))).take 4 = zeros 4) then .ub else .ok (0, data) := by
  have hzl : datalen + 4 ≤ (zeros (datalen + 4)).length := by simp
  have ht : List.replicate k 49 = List.replicate k 49 ++ b58Num 0 := by
    rw [show b58Num 0 = [] from by simp [b58Num, b58], List.append_nil]
  have hno : (zeros (datalen + 4)).drop (datalen + 4) = [] := by rw [List.drop_eq_nil_iff]; simp
  unfold decodeCheck
  rw [if_neg (by omega)]
  conv => lhs; rw [ht]
  rcases tobin_valid (zeros (datalen + 4)) (datalen + 4) (by omega) hzl k 0 with ⟨hbig, -⟩ | ⟨-, B, b1, b2, e⟩
  · have : 0 < 256 ^ (datalen + 4) := by positivity
    omega
  · have hB : B = zeros (datalen + 4) := beValue_inj (by simp [b1]) (by rw [b2, beValue_zeros])
    have hc : countZeros (zeros (datalen + 4)) = datalen + 4 := by
      have := countZeros_append (datalen + 4) []
      rw [List.append_nil] at this
      rw [this]; rfl
    rw [hno, List.append_nil, hB, hc, if_neg (by omega), Nat.sub_self, Nat.zero_add] at e
    rw [e, C.bind_ok]
    dsimp only
    rw [if_neg (by simp)]
    by_cases hk : datalen + 4 < k
    · rw [if_pos hk, if_pos (Or.inl hk)]
    · rw [if_neg hk]
      have hnd : (zeros (datalen + 4)).drop (datalen + 4 - k) = zeros k := by
        unfold zeros
        rw [List.drop_replicate]
        congr 1
        omega
      rw [hnd]
      unfold b58check
      by_cases h4 : k < 4
      · rw [if_pos h4, C.bind_ok, if_pos (by decide), if_neg (by omega), C.pure_eq]
      · rw [if_neg h4]
        unfold load
        rw [if_pos (by simp), if_pos (by simp; omega), C.bind_ok, C.bind_ok, List.drop_zero]
        have e1 : (zeros k).take (k - 4) = zeros (k - 4) := by unfold zeros; rw [List.take_replicate]; congr 1; omega
        have e2 : ((zeros k).drop (k - 4)).take 4 = zeros 4 := by unfold zeros; rw [List.drop_replicate, List.take_replicate]; congr 1; omega
        rw [e1, e2]
        by_cases hs : zeros 4 = (H (zeros (k - 4))).take 4
        · rw [if_neg (not_not.mpr hs), if_pos (Or.inr ⟨by omega, hs.symm⟩)]
          have := zeroRun_ub k
          rw [ht] at this
          rw [this]
          rfl
        · rw [if_pos hs, if_neg (fun h => h.elim hk (fun h => hs h.2.symm))]
          simp only [C.pure_eq, C.bind_ok]
          rw [if_pos (by decide)]

/-- Different payloads have different texts. -/
theorem C92_text_unique (H : Bytes → Bytes) (hH : ∀ x, 4 ≤ (H x).length) (p q : Bytes) (h : base58Text (p ++ (H p).take 4) = base58Text (q ++ (H q).take 4)) : p = q := by
  have hck : ∀ p, ((H p).take 4).length = 4 := fun p => by rw [List.length_take]; have := hH p; omega
  have key : ∀ a b : Bytes, base58Text a = base58Text b → b.length ≤ a.length → a = b := by
    intro a b hab hl
    obtain ⟨c1, c2, c3⟩ := text_in (a := b) (B := a) (z := countZeros a) (v := beValue a) (by rw [← hab, base58Text_eq]) rfl hl
    have c4 : countZeros a = a.length - b.length + countZeros a := by
      conv => lhs; rw [c3]
      rw [countZeros_append, c1]
    rw [show a.length - b.length = 0 by omega] at c3
    simpa [zeros] using c3
  have e : p ++ (H p).take 4 = q ++ (H q).take 4 := by
    rcases Nat.le_total (q ++ (H q).take 4).length (p ++ (H p).take 4).length with hl | hl
    · exact key _ _ h hl
    · exact (key _ _ h.symm hl).symm
  have e2 := congrArg List.length e
  rw [List.length_append, List.length_append, hck, hck] at e2
  exact (List.append_inj e (by omega)).1

/-- C92: what `base58_encode_check` writes is read back by `base58_decode_check`, whatever zero bytes the data begin with. -/
theorem C92_roundtrip (H : Bytes → Bytes) (hH : ∀ x, 4 ≤ (H x).length) (p out data : Bytes) (hl : p.length ≤ 128) (hd : p.length ≤ data.length)
    (ho : (base58Text (p ++ (H p).take 4)).length < out.length) (hz : ∃ b ∈ p ++ (H p).take 4, b ≠ 0) :
    ∃ t rest, encodeCheck H p out = .ok (t.length + 1, t ++ 0 :: rest) ∧ decodeCheck H t data p.length = .ok (p.length, p ++ data.drop p.length) := by
  refine ⟨base58Text (p ++ (H p).take 4), out.drop ((base58Text (p ++ (H p).take 4)).length + 1), ?_, ?_⟩
  · rw [C92_encode H p out hl, if_neg (by omega)]
  · have hck : ∀ p, ((H p).take 4).length = 4 := fun p => by rw [List.length_take]; have := hH p; omega
    have hns : ∃ c ∈ base58Text (p ++ (H p).take 4), c ≠ 49 := by
      have hv : beValue (p ++ (H p).take 4) ≠ 0 := by
        intro h0
        have : p ++ (H p).take 4 = zeros (p ++ (H p).take 4).length := beValue_inj (by simp) (by rw [h0, beValue_zeros])
        obtain ⟨b, hb, hb0⟩ := hz
        rw [this] at hb
        exact hb0 (List.eq_of_mem_replicate hb)
      rw [base58Text_eq]
      cases hh : b58Num (beValue (p ++ (H p).take 4)) with
      | nil =>
        exfalso
        apply hv
        apply b58Num_inj
        rw [hh]
        simp [b58Num, b58]
      | cons c cs =>
        refine ⟨c, by simp, fun hc => b58Num_head (beValue (p ++ (H p).take 4)) ?_⟩
        rw [hh, hc]
        rfl
    rcases C92_decode H hH (base58Text (p ++ (H p).take 4)) data p.length hl hd hns with ⟨q, q1, q2, q3⟩ | ⟨h, -⟩
    · rw [q3, C92_text_unique H hH p q q2]
    · exact absurd rfl (h p (Nat.le_refl _))

theorem length_hash256 (x : Bytes) : 4 ≤ (hash256 x).length := by rw [hash256, length_sha256]; omega

/-- C92: the hypotheses hold for double SHA-256 and data with zero bytes in front; a text with another character than '1'; and a text
of thirty ones, which makes the decoder of 21 bytes leave its buffer. -/
example : ∃ p out data : Bytes, p.length ≤ 128 ∧ p.length ≤ data.length ∧ (base58Text (p ++ (hash256 p).take 4)).length < out.length ∧
    (∃ b ∈ p ++ (hash256 p).take 4, b ≠ 0) ∧ p.head? = some 0 := by
  have key : ∀ c : Bytes, ∃ out : Bytes, (base58Text ([0, 0, 1] ++ c)).length < out.length := fun c =>
    ⟨zeros ((base58Text ([0, 0, 1] ++ c)).length + 1), by rw [length_zeros]; exact Nat.lt_succ_self _⟩
  obtain ⟨out, ho⟩ := key ((hash256 [0, 0, 1]).take 4)
  exact ⟨[0, 0, 1], out, zeros 3, by decide, by decide, ho, ⟨1, List.mem_append_left _ (by decide), by decide⟩, rfl⟩
example : ∃ c ∈ ([49, 50, 49] : Bytes), c ≠ 49 := by decide
example (data : Bytes) : decodeCheck hash256 (List.replicate 30 49) data 21 = .ub := by
  rw [C92_decode_ones _ _ _ _ (by decide), if_pos (Or.inl (by decide))]

end TrezorBase58
end UB
