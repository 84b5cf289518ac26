import Verif.Spec.Radix
import Verif.Lemmas.Radix

/-
C04 base-58 encoding, C05 base-58 round trip, C06 Base58Check, C07 base-43.
-/

namespace UB
open Spec

theorem base58Chars_eq :
    base58Chars = str "123456789ABCDEFGHJKLMNPQRSTUVWXYZabcdefghijkmnopqrstuvwxyz" := by decide
theorem base43Chars_eq :
    base43Chars = str "0123456789ABCDEFGHIJKLMNOPQRSTUVWXYZ$*+-./:" := by decide

theorem radixText58 (a : Bytes) : radixText base58 a = base58Text a := by
  unfold radixText base58Text numeralText leadingZeros
  rw [countZeros_eq, ← base58Chars_eq]; rfl

theorem radixText43 (a : Bytes) : radixText base43 a = base43Text a := by
  unfold radixText base43Text numeralText leadingZeros
  rw [countZeros_eq, ← base43Chars_eq]; rfl

/-- C04: in a buffer of at least `toBase58Length` characters, `toBase58` writes exactly the base-58
text, returns its length and zero-fills the rest. -/
theorem C04_toBase58_text (a out : Bytes) (h : toBaseLength base58 a ≤ out.length) :
    toBase58 a out = ((base58Text a).length, base58Text a ++ zeros (out.length - (base58Text a).length)) := by
  rw [← radixText58]; exact toBase_eq base58 good58 a out h

example : toBaseLength base58 [0, 0, 1, 2, 3] ≤ (zeros 12).length ∧
    toBase58 [0, 0, 1, 2, 3] (zeros 12) = (5, str "11Ldp" ++ zeros 7) := by decide +kernel

/-- C04: the text always fits in `toBase58Length` characters. -/
theorem C04_toBase58Length_enough (a : Bytes) : (base58Text a).length ≤ toBaseLength base58 a := by
  rw [← radixText58]; exact length_digits_le base58 good58 a

/-- C04: a buffer below `toBase58Length` is refused and left untouched. -/
theorem C04_toBase58_small (a out : Bytes) (h : out.length < toBaseLength base58 a) :
    toBase58 a out = (0, out) := by
  unfold toBase58 toBase
  rw [toBaseLength] at h
  simp only []
  rw [if_pos (by simpa using h)]

example : (zeros 3).length < toBaseLength base58 [1, 2, 3] := by decide

theorem length_truncAlphabet (R : Radix) (t : Bytes) : (truncAlphabet R t).length ≤ t.length := by
  induction t with
  | nil => simp [truncAlphabet]
  | cons c cs ih => simp only [truncAlphabet]; split <;> simp; omega

theorem length_text (R : Radix) (G : GoodRadix R) (a : Bytes) :
    (radixText R a).length ≤ countZeros a + ((a.length - countZeros a) * R.encNum / R.encDen + 1) := by
  have := length_digits_le R G a
  unfold toBaseLength at this
  omega

/-- C05, exact characterisation for strings of every length: decoding the base-58 text gives the string back if and only if the
decoder's size estimate `361*L/493+1` covers the string and is at most 255 bytes too large. -/
theorem C05_roundtrip_iff (a out : Bytes) (ho : a.length ≤ out.length) :
    fromBase58 (base58Text a) out = (a.length, a ++ zeros (out.length - a.length)) ↔
      a.length ≤ (base58Text a).length * 361 / 493 + 1 ∧ (base58Text a).length * 361 / 493 + 1 < a.length + 256 := by
  rw [← radixText58]
  exact fromBase_iff base58 good58 a out ho

example : ([0, 0, 1, 2, 3] : Bytes).length ≤ (zeros 5).length := by decide

theorem size58_le (a : Bytes) (hl : a.length < 2 ^ 20) : (base58Text a).length * 361 / 493 + 1 < a.length + 256 := by
  have hzl := countZeros_le a
  rw [← radixText58]
  have hL := length_text base58 good58 a
  have hn : base58.encNum = 183 := rfl
  have hd : base58.encDen = 134 := rfl
  rw [hn, hd] at hL
  omega

theorem countZeros_none {a : Bytes} (hz : a.head? ≠ some 0) : countZeros a = 0 := by
  cases a with
  | nil => rfl
  | cons b bs =>
    have : (b == 0) = false := by simpa using hz
    simp [countZeros, this]

/-- C05 (no leading zero byte, below 2^20 bytes): decode after encode is the identity. Missing from the full property:
strings with leading zero bytes, for which it fails (`C05_roundtrip_fails`) exactly when
`C05_roundtrip_iff` says so, and long strings, for which it fails too (`C05_long_fails`). -/
theorem C05_roundtrip_partial (a o out : Bytes) (hl : a.length < 2 ^ 20) (hz : a.head? ≠ some 0)
    (hout : toBaseLength base58 a ≤ o.length) (ho : a.length ≤ out.length) :
    fromBase58 ((toBase58 a o).2.take (toBase58 a o).1) out = (a.length, a ++ zeros (out.length - a.length)) := by
  rw [C04_toBase58_text a o hout]
  simp only [List.take_left]
  rw [C05_roundtrip_iff a out ho]
  have := dec_size_ok base58 good58 a (countZeros_none hz)
  rw [radixText58] at this
  exact ⟨this, size58_le a hl⟩

example : ([0x80, 1, 2] : Bytes).head? ≠ some 0 ∧ toBaseLength base58 [0x80, 1, 2] ≤ (zeros 8).length := by decide

/-- C05 is false of every string of 63 million bytes or more that does not start with a zero byte: the number of bytes by which the
size estimate is too large is counted in eight bits. -/
theorem C05_long_fails (a o out : Bytes) (hl : 63000000 ≤ a.length) (hz : a.head? ≠ some 0)
    (hout : toBaseLength base58 a ≤ o.length) (ho : a.length ≤ out.length) :
    fromBase58 ((toBase58 a o).2.take (toBase58 a o).1) out ≠ (a.length, a ++ zeros (out.length - a.length)) := by
  rw [C04_toBase58_text a o hout]
  simp only [List.take_left]
  intro h
  obtain ⟨-, h⟩ := (C05_roundtrip_iff a out ho).mp h
  have := dec_size_large base58 good58 a (countZeros_none hz) (by rintro rfl; simp at hl) (p := 676) (q := 495) (by decide) (by decide +kernel)
  rw [radixText58] at this
  omega

example : ∃ a o out : Bytes, 63000000 ≤ a.length ∧ a.head? ≠ some 0 ∧ toBaseLength base58 a ≤ o.length ∧ a.length ≤ out.length :=
  ⟨List.replicate 63000000 1, zeros (toBaseLength base58 (List.replicate 63000000 1)), zeros 63000000, by rw [List.length_replicate],
    by rw [List.head?_replicate]; simp, by rw [length_zeros], by rw [List.length_replicate, length_zeros]⟩

/-- C05 is false in general: four zero bytes encode to "1111", which decodes to three bytes; and
`00 01 00 00` comes back as the single byte `00`. -/
theorem C05_roundtrip_fails :
    (toBase58 (zeros 4) (zeros 8)).2.take 4 = str "1111" ∧
    fromBase58 (str "1111") (zeros 8) = (3, zeros 8) ∧
    (toBase58 [0, 1, 0, 0] (zeros 8)).2.take 4 = str "1LUw" ∧
    fromBase58 (str "1LUw") (zeros 8) = (1, zeros 8) := by
  decide +kernel

/-- C05 for 25-byte payloads (version byte, 20-byte hash, checksum): the text decodes back exactly when
it has at least 33 characters. -/
theorem C05_address_payload_iff (a out : Bytes) (hl : a.length = 25) (ho : 25 ≤ out.length) :
    fromBase58 (base58Text a) out = (25, a ++ zeros (out.length - 25)) ↔ 33 ≤ (base58Text a).length := by
  have := C05_roundtrip_iff a out (by omega)
  have h2 := size58_le a (by omega)
  rw [hl] at this h2
  rw [this]
  omega

example : ∃ a out : Bytes, a.length = 25 ∧ 25 ≤ out.length ∧ ¬ (33 ≤ (base58Text a).length) :=
  ⟨zeros 25, zeros 25, by decide, by decide, by
    rw [← radixText58]
    have : beValue (zeros 25) = 0 := beValue_zeros 25
    have hc : countZeros (zeros 25) = 25 := by decide
    simp [radixText, this, hc]⟩

/-! Base58Check -/

/-- C06: if `fromBase58Check` returns a positive count, then the base-58 decoding of the text is the
returned payload followed by the first four bytes of its double hash. -/
theorem C06_accept_sound (H : Bytes → Bytes) (t out : Bytes)
    (h : (fromBase58Check H t out).1 ≠ 0) :
    ∃ p : Bytes, fromBase58 t (zeros (out.length + 4)) =
        (p.length + 4, p ++ (H p).take 4 ++ zeros (out.length - p.length)) ∧
      p.length ≤ out.length ∧
      fromBase58Check H t out = (p.length, p ++ out.drop p.length) := by
  unfold fromBase58Check at h ⊢
  simp only [] at h ⊢
  obtain ⟨d, hd, hr⟩ := fromBase_shape base58 t (zeros (out.length + 4))
  have hr' : fromBase58 t (zeros (out.length + 4)) = _ := hr
  rw [length_zeros] at hd hr'
  rw [hr'] at h ⊢
  simp only [] at h ⊢
  split at h
  · simp at h
  · rename_i h4
    split at h
    · simp at h
    · rename_i heq
      have htk : (d ++ zeros (out.length + 4 - d.length)).take (d.length - 4) = d.take (d.length - 4) := by
        rw [List.take_append_of_le_length (by omega)]
      have hdr : ((d ++ zeros (out.length + 4 - d.length)).drop (d.length - 4)).take 4 = d.drop (d.length - 4) := by
        rw [List.drop_append_of_le_length (by omega), List.take_append_of_le_length (by simp; omega),
          List.take_of_length_le (by simp; omega)]
      rw [htk, hdr] at heq
      simp only [bne_iff_ne, ne_eq, Decidable.not_not] at heq
      have hpl : (d.take (d.length - 4)).length = d.length - 4 := by simp
      refine ⟨d.take (d.length - 4), ?_, by omega, ?_⟩
      · rw [hpl, ← heq, List.take_append_drop]
        rw [show d.length - 4 + 4 = d.length by omega,
          show out.length - (d.length - 4) = out.length + 4 - d.length by omega]
      · rw [if_neg h4, htk, hdr, heq, hpl]
        simp

example : (fromBase58Check (fun _ => zeros 32)
    ((toBase58Check (fun _ => zeros 32) [1, 2] (zeros 20)).2.take 7) (zeros 3)).1 ≠ 0 := by decide +kernel

/-- C06: on failure (return value 0) the output buffer is untouched. -/
theorem C06_reject_untouched (H : Bytes → Bytes) (t out : Bytes)
    (h : (fromBase58Check H t out).1 = 0) : (fromBase58Check H t out).2 = out := by
  unfold fromBase58Check at h ⊢
  simp only [] at h ⊢
  split
  · rfl
  · split
    · rfl
    · rename_i h1 h2
      rw [if_neg h1, if_neg h2] at h
      simp only [] at h
      rw [h]; simp

/-- C06 (when base 58 itself round-trips): text made by `toBase58Check` is accepted and gives the
payload back. The condition on the length is exactly the one of `C05_roundtrip_iff`; without it the
property is false (`C06_valid_rejected`). -/
theorem C06_roundtrip_partial (H : Bytes → Bytes) (p o out : Bytes) (hH : (H p).length = 32)
    (ho : toBaseLength base58 (p ++ (H p).take 4) ≤ o.length) (hout : p.length ≤ out.length)
    (hc : p.length + 4 ≤ (base58Text (p ++ (H p).take 4)).length * 361 / 493 + 1)
    (hc2 : (base58Text (p ++ (H p).take 4)).length * 361 / 493 + 1 < p.length + 4 + 256) :
    fromBase58Check H ((toBase58Check H p o).2.take (toBase58Check H p o).1) out =
      (p.length, p ++ out.drop p.length) := by
  have hlen : (p ++ (H p).take 4).length = p.length + 4 := by simp [hH]
  unfold toBase58Check
  rw [C04_toBase58_text _ o ho]
  simp only [List.take_left]
  have := (C05_roundtrip_iff (p ++ (H p).take 4) (zeros (out.length + 4)) (by simp [hH]; omega)).mpr
    (by omega)
  unfold fromBase58Check
  rw [this]
  simp only [hlen, length_zeros]
  rw [if_neg (by omega)]
  have e : p.length + 4 - 4 = p.length := by omega
  rw [e, List.append_assoc, List.take_left, List.drop_left]
  have : (H p).take 4 ++ zeros (out.length + 4 - (p.length + 4)) = (H p).take 4 ++ zeros (out.length - p.length) := by
    congr 2; omega
  rw [this, List.take_left' (by simp [hH])]
  simp

/-- C06, exact: for payloads of every length, text made by `toBase58Check` gives the payload back if and only if the size estimate of
the decoder covers payload and checksum and is at most 255 bytes too large. -/
theorem C06_roundtrip_iff (H : Bytes → Bytes) (p o out : Bytes) (hH : (H p).length = 32) (hp : p ≠ [])
    (ho : toBaseLength base58 (p ++ (H p).take 4) ≤ o.length) (hout : p.length ≤ out.length) :
    fromBase58Check H ((toBase58Check H p o).2.take (toBase58Check H p o).1) out = (p.length, p ++ out.drop p.length) ↔
      p.length + 4 ≤ (base58Text (p ++ (H p).take 4)).length * 361 / 493 + 1 ∧
        (base58Text (p ++ (H p).take 4)).length * 361 / 493 + 1 < p.length + 4 + 256 := by
  constructor
  · intro h
    have h0 : (fromBase58Check H ((toBase58Check H p o).2.take (toBase58Check H p o).1) out).1 ≠ 0 := by
      rw [h]; exact fun e => hp (List.length_eq_zero_iff.mp e)
    obtain ⟨p', h1, -, h3⟩ := C06_accept_sound H _ out h0
    rw [h] at h3
    have hl : p.length = p'.length := congrArg Prod.fst h3
    have e : p = p' := (List.append_inj (congrArg Prod.snd h3) hl).1
    subst e
    unfold toBase58Check at h1
    rw [C04_toBase58_text _ o ho] at h1
    simp only [List.take_left] at h1
    have hlen : (p ++ (H p).take 4).length = p.length + 4 := by simp [hH]
    have := (C05_roundtrip_iff (p ++ (H p).take 4) (zeros (out.length + 4)) (by simp [hH]; omega)).mp (by
      rw [h1, hlen, length_zeros, Nat.add_sub_add_right])
    rwa [hlen] at this
  · exact fun h => C06_roundtrip_partial H p o out hH ho hout h.1 h.2

/-- C06: payloads below 2^20 bytes whose first byte is not zero always round-trip through Base58Check. -/
theorem C06_roundtrip_nonzero_partial (H : Bytes → Bytes) (p o out : Bytes) (hH : (H p).length = 32)
    (hl : p.length + 4 < 2 ^ 20) (hp : p ≠ []) (hz : p.head? ≠ some 0)
    (ho : toBaseLength base58 (p ++ (H p).take 4) ≤ o.length) (hout : p.length ≤ out.length) :
    fromBase58Check H ((toBase58Check H p o).2.take (toBase58Check H p o).1) out =
      (p.length, p ++ out.drop p.length) := by
  have hs := size58_le (p ++ (H p).take 4) (by simp [hH]; omega)
  refine C06_roundtrip_partial H p o out hH ho hout ?_ (by simpa [hH] using hs)
  have hz' : countZeros (p ++ (H p).take 4) = 0 := by
    cases p with
    | nil => exact absurd rfl hp
    | cons b bs =>
      have : (b == 0) = false := by simpa using hz
      simp [countZeros, this]
  have := dec_size_ok base58 good58 _ hz'
  rw [radixText58] at this
  simpa [hH, fromBaseLength, base58] using this

example : (∀ x : Bytes, ((fun _ => zeros 32) x : Bytes).length = 32) ∧ ([0x80, 1] : Bytes).head? ≠ some 0 ∧
    toBaseLength base58 ([0x80, 1] ++ (zeros 32).take 4) ≤ (zeros 12).length := by
  refine ⟨by simp, by decide, by decide⟩

/-- C06 is false in general: with a hash whose first four bytes are zero for the all-zero payload, the
library rejects its own text of 21 zero bytes (25 characters, decoded to 19 bytes). The same happens
for every payload whose text is shorter than 33 characters, see `C05_address_payload_iff`. -/
theorem C06_valid_rejected :
    fromBase58Check (fun _ => zeros 31 ++ [1])
      ((toBase58Check (fun _ => zeros 31 ++ [1]) (zeros 21) (zeros 40)).2.take 25) (zeros 21) ≠
      (21, zeros 21) := by
  decide +kernel

/-! Base 43 -/

/-- C07: `toBase43` writes exactly the base-43 text. -/
theorem C07_toBase43_text (a out : Bytes) (h : toBaseLength base43 a ≤ out.length) :
    toBase43 a out = ((base43Text a).length, base43Text a ++ zeros (out.length - (base43Text a).length)) := by
  rw [← radixText43]; exact toBase_eq base43 good43 a out h

example : toBaseLength base43 [0, 1, 2, 3] ≤ (zeros 9).length := by decide

/-- C07: the text always fits in `toBase43Length` characters. -/
theorem C07_toBase43Length_enough (a : Bytes) : (base43Text a).length ≤ toBaseLength base43 a := by
  rw [← radixText43]; exact length_digits_le base43 good43 a

/-- C07, exact characterisation for strings of every length: the round trip holds iff the decoder's size estimate covers the string
and is at most 255 bytes too large. -/
theorem C07_roundtrip_iff (a out : Bytes) (ho : a.length ≤ out.length) :
    fromBase43 (base43Text a) out = (a.length, a ++ zeros (out.length - a.length)) ↔
      a.length ≤ (base43Text a).length * 68 / 100 + 1 ∧ (base43Text a).length * 68 / 100 + 1 < a.length + 256 := by
  rw [← radixText43]
  exact fromBase_iff base43 good43 a out ho

/-- C07 (no leading zero byte, up to 30000 bytes): decode after encode is the identity. Missing:
strings with leading zero bytes (`C07_roundtrip_fails`) and long strings (`C07_long_fails`). -/
theorem C07_roundtrip_partial (a o out : Bytes) (hl : a.length ≤ 30000) (hz : a.head? ≠ some 0)
    (hout : toBaseLength base43 a ≤ o.length) (ho : a.length ≤ out.length) :
    fromBase43 ((toBase43 a o).2.take (toBase43 a o).1) out = (a.length, a ++ zeros (out.length - a.length)) := by
  rw [C07_toBase43_text a o hout]
  simp only [List.take_left]
  rw [C07_roundtrip_iff a out ho]
  have h1 := dec_size_ok base43 good43 a (countZeros_none hz)
  rw [radixText43] at h1
  refine ⟨h1, ?_⟩
  have hL := length_text base43 good43 a
  rw [radixText43, countZeros_none hz] at hL
  have hn : base43.encNum = 148 := rfl
  have hd : base43.encDen = 100 := rfl
  rw [hn, hd] at hL
  omega

example : ([7, 0] : Bytes).length ≤ 30000 ∧ ([7, 0] : Bytes).head? ≠ some 0 ∧
    toBaseLength base43 [7, 0] ≤ (zeros 8).length ∧ ([7, 0] : Bytes).length ≤ (zeros 2).length := by decide

/-- C07 is false of every string of 122000 bytes or more that does not start with a zero byte. -/
theorem C07_long_fails (a o out : Bytes) (hl : 122000 ≤ a.length) (hz : a.head? ≠ some 0)
    (hout : toBaseLength base43 a ≤ o.length) (ho : a.length ≤ out.length) :
    fromBase43 ((toBase43 a o).2.take (toBase43 a o).1) out ≠ (a.length, a ++ zeros (out.length - a.length)) := by
  rw [C07_toBase43_text a o hout]
  simp only [List.take_left]
  intro h
  obtain ⟨-, h⟩ := (C07_roundtrip_iff a out ho).mp h
  have := dec_size_large base43 good43 a (countZeros_none hz) (by rintro rfl; simp at hl) (p := 28) (q := 19) (by decide) (by decide +kernel)
  rw [radixText43] at this
  omega

example : ∃ a o out : Bytes, 122000 ≤ a.length ∧ a.head? ≠ some 0 ∧ toBaseLength base43 a ≤ o.length ∧ a.length ≤ out.length :=
  ⟨List.replicate 122000 1, zeros (toBaseLength base43 (List.replicate 122000 1)), zeros 122000, by rw [List.length_replicate],
    by rw [List.head?_replicate]; simp, by rw [length_zeros], by rw [List.length_replicate, length_zeros]⟩

/-- C07 is false in general: four zero bytes come back as three. -/
theorem C07_roundtrip_fails :
    (toBase43 (zeros 4) (zeros 8)).2.take 4 = str "0000" ∧
    fromBase43 (str "0000") (zeros 8) = (3, zeros 8) := by
  decide +kernel

end UB
