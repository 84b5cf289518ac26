import Verif.Model.DigestText
import Verif.Props.Hash
import Verif.Props.BignumFormat
import Verif.Lemmas.BignumMul
import Verif.Lemmas.Mnemonic
import Verif.Props.Sha3

/-
C98: digests as text; numbers of 32 and 64 bits.
-/

namespace UB
open Spec

theorem hex_pair (d : UInt8) : [sha2HexDigits.getD ((d &&& 0xf0) >>> 4).toNat 0, sha2HexDigits.getD (d &&& 0x0f).toNat 0] = hexText [d] := by
  revert d; apply forall_byte; decide +kernel

theorem store_into (T R d : Bytes) (h : d.length ≤ R.length) : store (T ++ R) T.length d = .ok (T ++ d ++ R.drop d.length) := by
  unfold store
  rw [if_pos (by simp only [List.length_append]; omega)]
  simp [List.drop_append]

theorem digestLoop_spec : ∀ (ds T R : Bytes), 2 * ds.length ≤ R.length →
    digestLoop ds T.length (T ++ R) = .ok (T.length + 2 * ds.length, T ++ hexText ds ++ R.drop (2 * ds.length))
  | [], T, R, _ => by simp [digestLoop, hexText]
  | d :: ds, T, R, h => by
    simp only [List.length_cons] at h
    obtain ⟨r0, r1, R, rfl⟩ : ∃ r0 r1 R', R = r0 :: r1 :: R' := by
      rcases R with _ | ⟨r0, _ | ⟨r1, R⟩⟩
      · simp at h
      · simp only [List.length_cons, List.length_nil] at h; omega
      · exact ⟨r0, r1, R, rfl⟩
    have hp := hex_pair d
    rw [digestLoop]
    generalize sha2HexDigits.getD ((d &&& 0xf0) >>> 4).toNat 0 = x at *
    generalize sha2HexDigits.getD (d &&& 0x0f).toNat 0 = y at *
    rw [store_into _ _ _ (by simp), C.bind_ok]
    have e1 := store_into (T ++ [x]) (r1 :: R) [y] (by simp)
    rw [List.length_append, List.length_singleton] at e1
    rw [show T ++ [x] ++ List.drop [x].length (r0 :: r1 :: R) = T ++ [x] ++ (r1 :: R) from rfl, e1, C.bind_ok]
    have e2 := digestLoop_spec ds (T ++ [x, y]) R (by simp only [List.length_cons] at h; omega)
    rw [show T ++ [x] ++ [y] ++ List.drop [y].length (r1 :: R) = T ++ [x, y] ++ R by simp]
    rw [List.length_append, show [x, y].length = 2 from rfl] at e2
    rw [e2, hp]
    simp only [List.length_cons, hexText, List.flatMap_cons, List.flatMap_nil, List.append_nil, List.append_assoc]
    congr 2
    · omega

theorem digestLoop_short : ∀ (ds T R : Bytes), R.length < 2 * ds.length → digestLoop ds T.length (T ++ R) = .ub
  | [], _, _, h => by simp at h
  | d :: ds, T, R, h => by
    rw [digestLoop]
    generalize sha2HexDigits.getD ((d &&& 0xf0) >>> 4).toNat 0 = x at *
    generalize sha2HexDigits.getD (d &&& 0x0f).toNat 0 = y at *
    rcases R with _ | ⟨r0, _ | ⟨r1, R⟩⟩
    · rw [store, if_neg (by simp)]; rfl
    · rw [store_into _ _ _ (by simp), C.bind_ok, store, if_neg (by simp)]; rfl
    · rw [store_into _ _ _ (by simp), C.bind_ok]
      have e1 := store_into (T ++ [x]) (r1 :: R) [y] (by simp)
      rw [List.length_append, List.length_singleton] at e1
      rw [show T ++ [x] ++ List.drop [x].length (r0 :: r1 :: R) = T ++ [x] ++ (r1 :: R) from rfl, e1, C.bind_ok]
      have e2 := digestLoop_short ds (T ++ [x, y]) R (by simp only [List.length_cons] at h; omega)
      rw [show T ++ [x] ++ [y] ++ List.drop [y].length (r1 :: R) = T ++ [x, y] ++ R by simp]
      rwa [List.length_append, show [x, y].length = 2 from rfl] at e2

section
variable {W BC : Type} [Add W] [OfNat W 0] (P : Sha2Code W BC)

theorem endText_spec (c : Sha2Ctx W BC) (buf digest : Bytes) (hd : (P.final c).2 = digest) (h : 2 * digest.length < buf.length) :
    P.endText c (some buf) = .ok (P.wiped, some (2 * digest.length, hexText digest ++ 0 :: buf.drop (2 * digest.length + 1))) := by
  unfold Sha2Code.endText
  have e := digestLoop_spec digest [] buf (by omega)
  simp only [List.length_nil, List.nil_append, Nat.zero_add] at e
  dsimp only
  rw [hd, e, C.bind_ok]
  dsimp only
  have e2 := store_into (hexText digest) (buf.drop (2 * digest.length)) [0] (by simp only [List.length_drop, List.length_singleton]; omega)
  rw [length_hexText] at e2
  rw [e2, C.bind_ok]
  simp [C.pure_eq, Sha2Code.final, List.drop_drop]

theorem endText_short (c : Sha2Ctx W BC) (buf digest : Bytes) (hd : (P.final c).2 = digest) (h : buf.length ≤ 2 * digest.length) :
    P.endText c (some buf) = .ub := by
  unfold Sha2Code.endText
  dsimp only
  rw [hd]
  by_cases h2 : buf.length < 2 * digest.length
  · have e := digestLoop_short digest [] buf h2
    simp only [List.length_nil, List.nil_append] at e
    rw [e]; rfl
  · have e := digestLoop_spec digest [] buf (by omega)
    simp only [List.length_nil, List.nil_append, Nat.zero_add] at e
    rw [e, C.bind_ok]
    dsimp only
    rw [store, if_neg]
    · rfl
    · simp only [List.length_append, length_hexText, List.length_drop, List.length_singleton]; omega

end

/-- C98: `sha256_End` writes the digest of all the data as 64 lowercase hexadecimal digits and a terminating zero, nothing else, and wipes the
context; the pointer returned is the one to the terminating zero. -/
theorem C98_sha256_text_partial (pieces : List Bytes) (h : pieces.flatten.length < 2 ^ 61) (buf : Bytes) :
    (65 ≤ buf.length → sha256Code.endText (pieces.foldl sha256Code.update sha256Code.init) (some buf) =
      .ok (sha256Code.wiped, some (64, hexText (Spec.sha256 pieces.flatten) ++ 0 :: buf.drop 65))) ∧
    (buf.length < 65 → sha256Code.endText (pieces.foldl sha256Code.update sha256Code.init) (some buf) = .ub) := by
  have r := Sha2Code.rep_updates sha256Ok sha256Count pieces _ [] (Sha2Code.rep_init sha256Ok sha256Count) (by simpa using h)
  have e := Sha2Code.final_spec sha256Ok sha256Count _ _ r (by simpa using h)
  have hl := length_sha256 pieces.flatten
  refine ⟨fun hb => ?_, fun hb => ?_⟩
  · have := endText_spec sha256Code _ buf _ e (by rw [List.nil_append]; rw [show (Spec.sha256P.hash pieces.flatten).length = 32 from hl]; omega)
    rw [this, List.nil_append, show (Spec.sha256P.hash pieces.flatten).length = 32 from hl]; rfl
  · exact endText_short sha256Code _ buf _ e (by rw [List.nil_append]; rw [show (Spec.sha256P.hash pieces.flatten).length = 32 from hl]; omega)

/-- C98: `sha512_End` writes the digest of all the data as 128 lowercase hexadecimal digits and a terminating zero, nothing else, and wipes the
context; the pointer returned is the one to the terminating zero. -/
theorem C98_sha512_text_partial (pieces : List Bytes) (h : pieces.flatten.length < 2 ^ 61) (buf : Bytes) :
    (129 ≤ buf.length → sha512Code.endText (pieces.foldl sha512Code.update sha512Code.init) (some buf) =
      .ok (sha512Code.wiped, some (128, hexText (Spec.sha512 pieces.flatten) ++ 0 :: buf.drop 129))) ∧
    (buf.length < 129 → sha512Code.endText (pieces.foldl sha512Code.update sha512Code.init) (some buf) = .ub) := by
  have r := Sha2Code.rep_updates sha512Ok sha512Count pieces _ [] (Sha2Code.rep_init sha512Ok sha512Count) (by simpa using h)
  have e := Sha2Code.final_spec sha512Ok sha512Count _ _ r (by simpa using h)
  have hl := length_sha512 pieces.flatten
  refine ⟨fun hb => ?_, fun hb => ?_⟩
  · have := endText_spec sha512Code _ buf _ e (by rw [List.nil_append]; rw [show (Spec.sha512P.hash pieces.flatten).length = 64 from hl]; omega)
    rw [this, List.nil_append, show (Spec.sha512P.hash pieces.flatten).length = 64 from hl]; rfl
  · exact endText_short sha512Code _ buf _ e (by rw [List.nil_append]; rw [show (Spec.sha512P.hash pieces.flatten).length = 64 from hl]; omega)

/-- Without a buffer the context is wiped all the same. -/
theorem C98_null (c : Sha2Ctx UInt32 UInt64) (d : Sha2Ctx UInt64 (UInt64 × UInt64)) :
    sha256Code.endText c none = .ok (⟨List.replicate 8 0, 0, zeros 64⟩, none) ∧ sha512Code.endText d none = .ok (⟨List.replicate 8 0, (0, 0), zeros 128⟩, none) := ⟨rfl, rfl⟩

/-- `sha256_Data` and `sha512_Data`: the same for data in one piece. -/
theorem C98_data_text_partial (data : Bytes) (h : data.length < 2 ^ 61) (buf : Bytes) :
    (65 ≤ buf.length → sha256Code.dataText data (some buf) = .ok (some (64, hexText (Spec.sha256 data) ++ 0 :: buf.drop 65))) ∧
    (129 ≤ buf.length → sha512Code.dataText data (some buf) = .ok (some (128, hexText (Spec.sha512 data) ++ 0 :: buf.drop 129))) := by
  have h1 := C98_sha256_text_partial [data] (by simpa using h) buf
  have h2 := C98_sha512_text_partial [data] (by simpa using h) buf
  simp only [List.foldl_cons, List.foldl_nil, List.flatten_cons, List.flatten_nil, List.append_nil] at h1 h2
  exact ⟨fun hb => by rw [Sha2Code.dataText, h1.1 hb]; rfl, fun hb => by rw [Sha2Code.dataText, h2.1 hb]; rfl⟩

/-- The text that a pointer points to. -/
def textAt (buf : Bytes) (pos : Nat) : Bytes := (buf.drop pos).takeWhile (· ≠ 0)

/-- C98 fails for the value returned: used as a text, as `printf("%s", sha256_Data(…))` would, it is empty. -/
theorem C98_returned_text_empty (data : Bytes) (h : data.length < 2 ^ 61) (buf : Bytes) (hb : 65 ≤ buf.length) :
    ∃ pos out, sha256Code.dataText data (some buf) = .ok (some (pos, out)) ∧ textAt out pos = [] ∧ textAt out 0 = hexText (Spec.sha256 data) := by
  refine ⟨64, _, (C98_data_text_partial data h buf).1 hb, ?_, ?_⟩
  · have : 64 = (hexText (Spec.sha256 data)).length := by rw [length_hexText, length_sha256]
    rw [textAt, this, List.drop_left]; rfl
  · have hd : ∀ x ∈ hexText (Spec.sha256 data), x ≠ 0 := by
      have key : ∀ b : UInt8, hexDigitChar (b.toNat / 16) ≠ 0 ∧ hexDigitChar (b.toNat % 16) ≠ 0 := by apply forall_byte; decide +kernel
      intro x hx
      obtain ⟨b, -, hb⟩ := List.mem_flatMap.mp hx
      simp only [List.mem_cons, List.not_mem_nil, or_false] at hb
      rcases hb with rfl | rfl
      · exact (key b).1
      · exact (key b).2
    rw [textAt, List.drop_zero]
    generalize hexText (Spec.sha256 data) = t at *
    induction t with
    | nil => rfl
    | cons x t ih =>
      rw [List.cons_append, List.takeWhile_cons_of_pos (by simpa using hd x (by simp)), ih (fun y hy => hd y (by simp [hy]))]

/-- `sha3_256`, `sha3_512`: the digest of the data. -/
theorem C98_sha3 (bits : Nat) (hb : bits ∈ [256, 512]) (aligned : Bool) (data : Bytes) : Sha3.raw bits aligned data = .ok (Spec.Sha3.hash bits data) := by
  have e := C95_sha3_pieces bits (by simp only [List.mem_cons, List.not_mem_nil, or_false] at hb ⊢; omega) [(aligned, data)]
  simp only [List.map_cons, List.map_nil, List.flatten_cons, List.flatten_nil, List.append_nil] at e
  unfold Sha3.raw
  cases h1 : Sha3.init bits with
  | ub => rw [h1] at e; exact absurd e (by simp)
  | ok c =>
    rw [h1, C.bind_ok] at e
    rw [C.bind_ok]
    cases h2 : Sha3.update aligned c data with
    | ub => simp [Sha3.updates, h2] at e
    | ok c2 =>
      rw [C.bind_ok]
      simp only [Sha3.updates, h2, C.bind_ok] at e
      rw [e]; rfl

namespace BN

theorem normal_three (a b c : UInt32) (ha : a.toNat < 2 ^ 30) (hb : b.toNat < 2 ^ 30) (hc : c.toNat < 2 ^ 30) : Normal [a, b, c, 0, 0, 0, 0, 0, 0] := by
  refine ⟨rfl, ?_⟩
  intro x hx
  simp only [List.mem_cons, List.not_mem_nil, or_false] at hx
  rcases hx with rfl | rfl | rfl | rfl | rfl | rfl | rfl | rfl | rfl
  · exact ha
  · exact hb
  · exact hc
  all_goals decide

/-- `bn_read_uint32`, `bn_read_uint64`: the number. -/
theorem C98_read (n : UInt32) (m : UInt64) : Normal (ofUInt32 n) ∧ limbValue (ofUInt32 n) = n.toNat ∧ Normal (ofUInt64 m) ∧ limbValue (ofUInt64 m) = m.toNat := by
  have hn := n.toNat_lt
  have hm := m.toNat_lt
  have a1 : (n &&& 0x3FFFFFFF).toNat = n.toNat % 2 ^ 30 := by rw [UInt32.toNat_and]; exact Nat.and_two_pow_sub_one_eq_mod _ 30
  have a2 : (n >>> 30).toNat = n.toNat / 2 ^ 30 := by rw [UInt32.toNat_shiftRight]; exact Nat.shiftRight_eq_div_pow _ 30
  have b1 : ((m &&& 0x3FFFFFFF).toUInt32).toNat = m.toNat % 2 ^ 30 := by
    rw [UInt64.toNat_toUInt32, UInt64.toNat_and, show (0x3FFFFFFF : UInt64).toNat = 2 ^ 30 - 1 from rfl, Nat.and_two_pow_sub_one_eq_mod]; omega
  have b0 : (m >>> 30).toNat = m.toNat / 2 ^ 30 := by rw [UInt64.toNat_shiftRight]; exact Nat.shiftRight_eq_div_pow _ 30
  have b2 : (((m >>> 30) &&& 0x3FFFFFFF).toUInt32).toNat = m.toNat / 2 ^ 30 % 2 ^ 30 := by
    rw [UInt64.toNat_toUInt32, UInt64.toNat_and, show (0x3FFFFFFF : UInt64).toNat = 2 ^ 30 - 1 from rfl, Nat.and_two_pow_sub_one_eq_mod, b0]; omega
  have b3 : (((m >>> 30) >>> 30).toUInt32).toNat = m.toNat / 2 ^ 60 := by
    rw [UInt64.toNat_toUInt32, UInt64.toNat_shiftRight, b0, show (30 : UInt64).toNat % 64 = 30 from rfl, Nat.shiftRight_eq_div_pow]; omega
  refine ⟨normal_three _ _ 0 (by omega) (by omega) (by decide), ?_, normal_three _ _ _ (by omega) (by omega) (by omega), ?_⟩
  · simp only [ofUInt32, limbValue, a1, a2, show (0 : UInt32).toNat = 0 from rfl]; omega
  · simp only [ofUInt64, limbValue, b1, b2, b3, show (0 : UInt32).toNat = 0 from rfl]; omega

/-- `bn_write_uint32`, `bn_write_uint64`: the lowest 32 and 64 bits of any normal number. -/
theorem C98_write (a : BN) (h : Normal a) : (toUInt32 a).toNat = limbValue a % 2 ^ 32 ∧ (toUInt64 a).toNat = limbValue a % 2 ^ 64 := by
  obtain ⟨a0, a1, a2, t, rfl⟩ : ∃ a0 a1 a2 t, a = a0 :: a1 :: a2 :: t := by
    have hl := h.len
    rcases a with _ | ⟨a0, _ | ⟨a1, _ | ⟨a2, t⟩⟩⟩
    · simp at hl
    · simp at hl
    · simp at hl
    · exact ⟨a0, a1, a2, t, rfl⟩
  have h0 : a0.toNat < 2 ^ 30 := h.small a0 (by simp)
  have h1 : a1.toNat < 2 ^ 30 := h.small a1 (by simp)
  have h2 : a2.toNat < 2 ^ 30 := h.small a2 (by simp)
  have orAdd : ∀ x y i : Nat, y < 2 ^ i → x * 2 ^ i ||| y = x * 2 ^ i + y := by
    intro x y i hy
    rw [← Nat.shiftLeft_eq, Nat.shiftLeft_add_eq_or_of_lt hy]
  simp only [limbValue]
  generalize limbValue t = T
  constructor
  · show (a0 ||| a1 <<< 30).toNat = _
    rw [UInt32.toNat_or, UInt32.toNat_shiftLeft, show (30 : UInt32).toNat % 32 = 30 from rfl, Nat.shiftLeft_eq,
      show a1.toNat * 2 ^ 30 % 2 ^ 32 = (a1.toNat % 4) * 2 ^ 30 by omega, Nat.or_comm, orAdd _ _ _ h0]
    omega
  · show (((a2.toUInt64 <<< 30) ||| a1.toUInt64) <<< 30 ||| a0.toUInt64).toNat = _
    have e1 : ((a2.toUInt64 <<< 30) ||| a1.toUInt64).toNat = a2.toNat * 2 ^ 30 + a1.toNat := by
      rw [UInt64.toNat_or, UInt64.toNat_shiftLeft, show (30 : UInt64).toNat % 64 = 30 from rfl, Nat.shiftLeft_eq, UInt32.toNat_toUInt64, UInt32.toNat_toUInt64,
        Nat.mod_eq_of_lt (by omega), orAdd _ _ _ h1]
    rw [UInt64.toNat_or, UInt64.toNat_shiftLeft, e1, show (30 : UInt64).toNat % 64 = 30 from rfl, Nat.shiftLeft_eq, UInt32.toNat_toUInt64,
      show (a2.toNat * 2 ^ 30 + a1.toNat) * 2 ^ 30 % 2 ^ 64 = ((a2.toNat * 2 ^ 30 + a1.toNat) % 2 ^ 34) * 2 ^ 30 by omega, orAdd _ _ _ h0]
    omega

/-- `bn_format_uint64` writes the amount with so many decimals between prefix and suffix, or reports that it does not fit (C94_format). -/
theorem C98_format_uint64 (amount : UInt64) (pre suf : Bytes) (decimals : Nat) (exponent : Int) (trailing : Bool) (out : Bytes)
    (hlen : pre.length + suf.length + 1 ≤ out.length)
    (hgood : 0 < decimals ∨ amount = 0 ∨ scaled amount.toNat exponent ≠ 0 ∨ suf = [] ∨ suf.head? = some 46) (text : Bytes)
    (ht : text = pre ++ amountText (scaled amount.toNat exponent) decimals trailing ++ suf) :
    (text.length + 1 ≤ out.length → ∃ rest, formatUInt64 amount pre suf decimals exponent trailing out = .ok (some (text.length, text ++ 0 :: rest)) ∧
      (text ++ 0 :: rest).length = out.length) ∧
    (out.length < text.length + 1 → formatUInt64 amount pre suf decimals exponent trailing out = .ok none) := by
  obtain ⟨-, -, hn, hv⟩ := C98_read 0 amount
  refine C94_format (ofUInt64 amount) hn ?_ pre suf decimals exponent trailing out hlen ?_ text (by rw [hv]; exact ht)
  · rw [hv]; exact Nat.lt_of_lt_of_le amount.toNat_lt (by norm_num)
  · rw [hv]
    rcases hgood with h | h | h
    · exact .inl h
    · exact .inr (.inl (by rw [h]; rfl))
    · exact .inr (.inr h)

end BN

/-! Cases that meet the hypotheses. -/

example : sha256Code.dataText [0x61, 0x62, 0x63] (some (zeros 70)) = .ok (some (64, hexText (Spec.sha256 [0x61, 0x62, 0x63]) ++ 0 :: (zeros 70).drop 65)) :=
  (C98_data_text_partial _ (by decide) _).1 (by rw [length_zeros]; decide)
example : sha256Code.endText ([[0x61], [], [0x62]].foldl sha256Code.update sha256Code.init) (some (zeros 64)) = .ub :=
  (C98_sha256_text_partial _ (by decide) _).2 (by rw [length_zeros]; decide)
example : (BN.toUInt64 (BN.ofUInt64 0xfedcba9876543210)) = 0xfedcba9876543210 := by decide +kernel
/-- 0.12 BTC. -/
example : ∃ rest, BN.formatUInt64 12000000 [] [32, 66, 84, 67] 8 0 false (zeros 20) = .ok (some (8, [48, 46, 49, 50, 32, 66, 84, 67] ++ 0 :: rest)) := by
  obtain ⟨rest, e, -⟩ := (BN.C98_format_uint64 12000000 [] [32, 66, 84, 67] 8 0 false (zeros 20) (by decide) (.inl (by omega)) [48, 46, 49, 50, 32, 66, 84, 67] (by
      have : amountText (scaled (12000000 : UInt64).toNat 0) 8 false = [48, 46, 49, 50] := by
        rw [show scaled (12000000 : UInt64).toNat 0 = 12000000 by decide]
        unfold amountText
        rw [show 12000000 / 10 ^ 8 = 0 by norm_num, decimalText, if_pos (by omega)]
        decide
      rw [this]; rfl)).1 (by decide)
  exact ⟨rest, e⟩

end UB
