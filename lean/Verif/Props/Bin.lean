import Verif.Lemmas.Bin

/-
C03 binary-string round trip.
-/

namespace UB
open Spec

/-- C03: `toBin` writes the binary digits, eight per byte, most significant first. -/
theorem C03_toBin_text (a out : Bytes) (h : 8 * a.length ≤ out.length) :
    toBin a out = (8 * a.length, bitText (a.flatMap bits8) ++ zeros (out.length - 8 * a.length)) := by
  unfold toBin
  rw [if_neg (by omega), toBin_chars]

example : toBin [5] (zeros 9) = (8, str "00000101" ++ [0]) := by decide

/-- C03 (sizes up to 256 bytes): a string of `n` binary digits decodes to the `⌈n/8⌉`-byte big-endian
number it spells, the rest of the buffer is zero. Missing: longer strings, for which the code is
wrong, see `C03_fromBin_wraps`. -/
theorem C03_fromBin_value_partial (bs : List Bool) (arr : Bytes) (hs : bs.length ≤ 2048)
    (ha : bs.length ≤ 8 * arr.length) :
    ∃ l : Bytes, fromBin (bitText bs) arr =
        ((bs.length + 7) / 8, l ++ zeros (arr.length - (bs.length + 7) / 8)) ∧
      l.length = (bs.length + 7) / 8 ∧ beValue l = bitsValue bs := by
  have hlen : (bitText bs).length = bs.length := by simp [bitText]
  have hl : (if (bitText bs).length % 8 != 0 then (bitText bs).length / 8 + 1
      else (bitText bs).length / 8) = (bs.length + 7) / 8 := by
    rw [hlen]; split
    · rename_i h; simp at h; omega
    · rename_i h; simp at h; omega
  unfold fromBin
  rw [if_neg (by rw [hlen]; omega)]
  simp only [hl]
  have hz : zeros arr.length = zeros ((bs.length + 7) / 8) ++ zeros (arr.length - (bs.length + 7) / 8) := by
    unfold zeros
    rw [List.replicate_append_replicate]
    congr 1; omega
  have hrev : (bitText bs).reverse = bitText bs.reverse := by simp [bitText]
  obtain ⟨l, h1, h2, h3⟩ := fromBinLoop_good ((bs.length + 7) / 8) bs.reverse 0
    (zeros ((bs.length + 7) / 8)) (zeros (arr.length - (bs.length + 7) / 8))
    (by simp) (by simp; omega) (by omega) (by rw [beValue_zeros]; simp)
  refine ⟨l, ?_, h2, ?_⟩
  · rw [hz, hrev, h1]; simp
  · rw [h3, beValue_zeros]; simp

example : ([true, false, true] : List Bool).length ≤ 2048 ∧
    ([true, false, true] : List Bool).length ≤ 8 * (zeros 2).length := by decide

/-- C03 (sizes up to 256 bytes): decode after encode is the identity. -/
theorem C03_roundtrip_partial (a out arr : Bytes) (hs : a.length ≤ 256)
    (ho : 8 * a.length ≤ out.length) (ha : a.length ≤ arr.length) :
    fromBin ((toBin a out).2.take (toBin a out).1) arr =
      (a.length, a ++ zeros (arr.length - a.length)) := by
  obtain ⟨hv, hl⟩ := bitsValue_bytes a
  have hlen : (bitText (a.flatMap bits8)).length = 8 * a.length := by rw [← hl]; simp [bitText]
  rw [C03_toBin_text a out ho]
  simp only [← hlen, List.take_left]
  obtain ⟨l, h1, h2, h3⟩ := C03_fromBin_value_partial (a.flatMap bits8) arr (by omega) (by omega)
  rw [hl] at h1 h2
  have e : (8 * a.length + 7) / 8 = a.length := by omega
  rw [e] at h1 h2
  rw [h1, beValue_inj h2 (by rw [h3, hv])]

example : fromBin (str "0000010111111111") (zeros 3) = (2, [5, 255, 0]) := by decide

/-- C03: any character other than 0 and 1 makes `fromBin` return 0. -/
theorem C03_fromBin_bad_char (t arr : Bytes) (h : ∃ c ∈ t, c ≠ 48 ∧ c ≠ 49) :
    (fromBin t arr).1 = 0 := by
  unfold fromBin
  split
  · rfl
  · simp only []
    rw [fromBinLoop_bad _ _ _ _ (by obtain ⟨c, hc, h⟩ := h; exact ⟨c, by simpa using hc, h⟩)]
    simp

example : ∃ c ∈ str "0120", c ≠ 48 ∧ c ≠ 49 := by decide

/-- C03 is false beyond 256 bytes: the text of a 257-byte string decodes to something else (the byte
index is kept in 8 bits). -/
theorem C03_fromBin_wraps :
    fromBin ((toBin (1 :: zeros 256) (zeros 2056)).2.take 2056) (zeros 257) =
      (257, zeros 256 ++ [1]) := by
  decide +kernel

end UB
