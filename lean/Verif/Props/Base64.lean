import Verif.Lemmas.Base64

/-
C08 base-64.
-/

namespace UB
open Spec

/-- C08: for every non-empty byte string and every flavour, `toBase64` writes exactly the RFC 4648 text,
zero-fills the rest and returns the text length. Missing from the full property: the empty byte
string, see `C08_empty_overrun`. -/
theorem C08_toBase64_text_partial (a out : Bytes) (f : B64Flags) (ha : a ≠ [])
    (ho : toBase64Length a.length f ≤ out.length) :
    toBase64 a out f = .ok ((base64Text (!f.noPadding) f.urlSafe a).length,
      base64Text (!f.noPadding) f.urlSafe a ++
        zeros (out.length - (base64Text (!f.noPadding) f.urlSafe a).length)) := by
  unfold toBase64
  rw [if_neg (by omega), b64Groups_eq f a ha]
  simp only [C.bind_ok]
  cases hu : f.urlSafe with
  | false => simp
  | true => simp [urlSafe_text]

example : ([1, 2] : Bytes) ≠ [] ∧ toBase64Length 2 ⟨true, true⟩ ≤ (zeros 3).length ∧
    toBase64 (str "Man") (zeros 5) ⟨false, false⟩ = .ok (4, str "TWFu" ++ [0]) := by decide +kernel

/-- C08: `toBase64Length` is the length of the text. -/
theorem C08_toBase64Length (a : Bytes) (f : B64Flags) :
    (base64Text (!f.noPadding) f.urlSafe a).length = toBase64Length a.length f := by
  rw [length_base64Text]
  cases f; simp [toBase64Length]

/-- C08: `fromBase64Length` of the text of a non-empty string is the length of the string. -/
theorem C08_fromBase64Length_partial (a : Bytes) (f : B64Flags) (ha : a ≠ []) :
    fromBase64Length (base64Text (!f.noPadding) f.urlSafe a) f = .ok a.length :=
  fromBase64Length_text f a ha

/-- C08: decoding the text of a non-empty string with the same flags gives the string back. For the
unpadded flavours the text must be followed by a NUL character (`nul`), because the code looks for
one; see `C08_unpadded_overread`. -/
theorem C08_roundtrip_partial (a o out : Bytes) (f : B64Flags) (nul : Bool) (ha : a ≠ [])
    (hn : f.noPadding = true → nul = true)
    (hout : toBase64Length a.length f ≤ o.length) (ho : a.length ≤ out.length) :
    ∃ l t, toBase64 a o f = .ok (l, t) ∧
      fromBase64 (t.take l) out f nul = .ok (a.length, a ++ zeros (out.length - a.length)) := by
  refine ⟨_, _, C08_toBase64_text_partial a o f ha hout, ?_⟩
  simp only [List.take_left]
  unfold fromBase64
  rw [fromBase64Length_text f a ha]
  simp only [C.bind_ok]
  rw [if_neg (by omega)]
  have hlen := C08_toBase64Length a f
  have hge : a.length ≤ (base64Text (!f.noPadding) f.urlSafe a).length := by
    rw [hlen]; unfold toBase64Length
    by_cases h0 : a.length % 3 = 0
    · simp [h0]; omega
    · have : (a.length % 3 != 0) = true := by simpa using h0
      rw [this]
      cases f.noPadding <;> simp <;> omega
  rw [fromBase64Loop_text f nul hn out.length a [] _ hge (by simpa using ho)]
  simp

example : ([1, 2] : Bytes) ≠ [] ∧ ((⟨true, true⟩ : B64Flags).noPadding = true → true = true) ∧
    toBase64Length 2 ⟨true, true⟩ ≤ (zeros 3).length := by decide

/-- C08 is false for the empty byte string: `toBase64` reads and writes out of bounds. -/
theorem C08_empty_overrun (out : Bytes) (f : B64Flags) : toBase64 [] out f = .ub := by
  unfold toBase64
  rw [if_neg (by simp [toBase64Length])]
  simp [b64Groups]

/-- C08: decoding the empty text with padding looks at characters before the text. -/
theorem C08_empty_decode_overread (out : Bytes) (u nul : Bool) :
    fromBase64 [] out ⟨false, u⟩ nul = .ub := by
  simp [fromBase64, fromBase64Length]

/-- C08: decoding unpadded text that is not followed by a NUL reads past its end. -/
theorem C08_unpadded_overread : ∃ a out : Bytes, ∃ f : B64Flags,
    fromBase64 (base64Text false false a) out f false = .ub :=
  ⟨[1], zeros 5, ⟨true, false⟩, by decide +kernel⟩

/-- C08: a padded text containing a NUL byte decodes as if the NUL were the character `A`. -/
theorem C08_nul_accepted :
    fromBase64 [0, 65, 65, 65] (zeros 3) ⟨false, false⟩ true = .ok (3, [0, 0, 0]) := by
  decide +kernel

end UB
