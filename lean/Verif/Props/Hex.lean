import Verif.Lemmas.Hex

/-
C01 hex round trip, C02 fromHex semantics and memory safety.
-/

namespace UB
open Spec

/-- C01: a large enough buffer receives exactly the lowercase hex text, then zeros. -/
theorem C01_toHex_text (a out : Bytes) (h : 2 * a.length ≤ out.length) :
    toHex a out = (2 * a.length, hexText a ++ zeros (out.length - 2 * a.length)) := by
  unfold toHex
  rw [if_neg (by omega), hexChars_eq]

example : 2 * (str "abc").length ≤ (zeros 7).length ∧
    toHex (str "abc") (zeros 7) = (6, str "616263" ++ [0]) := by decide

/-- C01: a buffer that is too small is left untouched and 0 is returned. -/
theorem C01_toHex_small (a out : Bytes) (h : out.length < 2 * a.length) :
    toHex a out = (0, out) := by
  unfold toHex; rw [if_pos h]

example : ([1, 2, 3] : Bytes).length < 2 * ([9, 9] : Bytes).length := by decide

/-- C01: hex text of `a`, in any mix of letter cases, decodes to `a` (rest of the buffer zeroed). -/
theorem C01_fromHex_hexText (a t arr : Bytes) (ht : t.map lower = hexText a)
    (h : a.length ≤ arr.length) :
    fromHex t arr = .ok (a.length, a ++ zeros (arr.length - a.length)) := by
  have := fromHexLoop_eq t [] arr.length
  unfold fromHex
  rw [skipNonHex_eq, skipToHex_text t a ht]
  simp only [List.length_nil, List.nil_append, Nat.zero_add] at this
  rw [this, hexPairs_text t a ht, if_pos h]

/-- C01: decode after encode is the identity, for every byte string. -/
theorem C01_roundtrip (a out arr : Bytes) (ho : 2 * a.length ≤ out.length)
    (h : a.length ≤ arr.length) :
    fromHex ((toHex a out).2.take (toHex a out).1) arr =
      .ok (a.length, a ++ zeros (arr.length - a.length)) := by
  rw [C01_toHex_text a out ho]
  apply C01_fromHex_hexText _ _ _ _ h
  have hl : ∀ n < 16, lower (hexDigitChar n) = hexDigitChar n := by decide +kernel
  simp only [← length_hexText, List.take_left]
  unfold hexText
  rw [List.map_flatMap]
  congr 1
  funext x
  have := x.toNat_lt
  simp only [List.map_cons, List.map_nil]
  rw [hl _ (by omega), hl _ (by omega)]

example : fromHex (str "DeadBEef") (zeros 5) = .ok (4, [0xde, 0xad, 0xbe, 0xef, 0]) := by decide

/-- C02: exact behaviour of `fromHex` on every text and every buffer: it decodes the longest run of
complete hex pairs after the leading non-hex characters, and it overruns the buffer exactly when
that run is longer than the buffer. -/
theorem C02_fromHex_exact (t arr : Bytes) :
    fromHex t arr =
      if (hexPairs (skipToHex t)).length ≤ arr.length then
        .ok ((hexPairs (skipToHex t)).length,
          hexPairs (skipToHex t) ++ zeros (arr.length - (hexPairs (skipToHex t)).length))
      else .ub := by
  have := fromHexLoop_eq (skipToHex t) [] arr.length
  unfold fromHex
  rw [skipNonHex_eq]
  simpa using this

/-- C02 (safe part): with a buffer of at least half the text length there is never an overrun. What
is missing from the full property: the function must also be safe for smaller buffers, see
`C02_fromHex_overrun`. -/
theorem C02_fromHex_safe_partial (t arr : Bytes) (h : t.length / 2 ≤ arr.length) :
    fromHex t arr ≠ .ub := by
  rw [C02_fromHex_exact]
  have h2 : (skipToHex t).length ≤ t.length := (List.dropWhile_suffix _).length_le
  have := length_hexPairs_le (skipToHex t)
  rw [if_pos (by omega)]
  simp

example : ([65, 65, 65, 65] : Bytes).length / 2 ≤ ([0, 0] : Bytes).length := by decide

/-- C02 is false as stated: `fromHex` writes past a buffer that is shorter than the decoded text,
for every buffer. -/
theorem C02_fromHex_overrun (arr : Bytes) : ∃ t : Bytes, fromHex t arr = .ub := by
  refine ⟨hexText (zeros (arr.length + 1)), ?_⟩
  have hl : ∀ n < 16, lower (hexDigitChar n) = hexDigitChar n := by decide +kernel
  have ht : (hexText (zeros (arr.length + 1))).map lower = hexText (zeros (arr.length + 1)) := by
    unfold hexText
    rw [List.map_flatMap]
    congr 1
    funext x
    have := x.toNat_lt
    simp only [List.map_cons, List.map_nil]
    rw [hl _ (by omega), hl _ (by omega)]
  rw [C02_fromHex_exact, skipToHex_text _ _ ht, hexPairs_text _ _ ht, if_neg]
  simp

end UB
