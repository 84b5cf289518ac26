import Verif.Model.Base

/-
Specifications for text encodings, independent of the model of the code.
-/

namespace UB.Spec

/-- Big-endian value of a byte string. -/
def beValue (b : Bytes) : Nat := b.foldl (fun acc x => acc * 256 + x.toNat) 0

/-- Little-endian value of a byte string. -/
def leValue (b : Bytes) : Nat := beValue b.reverse

/-! Hex -/

/-- Lowercase hex digit of a number below 16. -/
def hexDigitChar (n : Nat) : UInt8 := (str "0123456789abcdef").getD n 0

/-- Lowercase hex text of a byte string. -/
def hexText (b : Bytes) : Bytes :=
  b.flatMap fun x => [hexDigitChar (x.toNat / 16), hexDigitChar (x.toNat % 16)]

/-- Value of a hex digit of either case. -/
def hexValue? (c : UInt8) : Option Nat :=
  match (str "0123456789abcdef").findIdx? (· == c) with
  | some i => some i
  | none => (str "0123456789ABCDEF").findIdx? (· == c)

/-- The longest run of complete hex pairs at the start of a text, decoded. -/
def hexPairs : Bytes → Bytes
  | c1 :: c2 :: cs =>
    match hexValue? c1, hexValue? c2 with
    | some a, some b => UInt8.ofNat (16 * a + b) :: hexPairs cs
    | _, _ => []
  | _ => []

/-- Drop the leading characters that are not hex digits. -/
def skipToHex (t : Bytes) : Bytes := t.dropWhile fun c => (hexValue? c).isNone

/-- ASCII lower-casing. -/
def lower (c : UInt8) : UInt8 := if 65 ≤ c ∧ c ≤ 90 then c + 32 else c

/-! Binary text -/

/-- The eight binary digits of a byte, most significant first. -/
def bits8 (b : UInt8) : List Bool := [7, 6, 5, 4, 3, 2, 1, 0].map fun j => b.toNat.testBit j

/-- Text of a bit string. -/
def bitText (l : List Bool) : Bytes := l.map fun x => if x then 49 else 48

/-- Value of a bit string, most significant bit first. -/
def bitsValue (l : List Bool) : Nat := l.foldl (fun acc x => 2 * acc + x.toNat) 0

/-! Positional numerals -/

/-- Value of a list of digits, most significant first. -/
def digitsValue (r : Nat) (l : List Nat) : Nat := l.foldl (fun acc x => acc * r + x) 0

/-- `l` is the minimal numeral of `v` in radix `r`, most significant digit first: digits below `r`,
no leading zero, right value. (Zero has the empty numeral.) -/
def IsNumeral (r : Nat) (v : Nat) (l : List Nat) : Prop :=
  (∀ d ∈ l, d < r) ∧ l.head? ≠ some 0 ∧ digitsValue r l = v

end UB.Spec
