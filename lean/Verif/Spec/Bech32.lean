import Verif.Model.Base

/-
Specification: Bech32 texts (BIP 173) and segwit addresses.
-/

namespace UB.Spec

/-- BIP 173: the generator constants. -/
def bechGen : List Nat := [0x3b6a57b2, 0x26508e6d, 0x1ea119fa, 0x3d4233dd, 0x2a1462b3]

/-- BIP 173 `bech32_polymod`, one value. -/
def polymodStep (chk v : Nat) : Nat :=
  bechGen.zipIdx.foldl (fun c (g, i) => if (chk >>> 25).testBit i then c ^^^ g else c)
    (((chk &&& 0x1ffffff) <<< 5) ^^^ v)

def polymod (vs : List Nat) : Nat := vs.foldl polymodStep 1

/-- BIP 173 `bech32_hrp_expand`. -/
def hrpExpand (hrp : Bytes) : List Nat :=
  hrp.map (fun c => c.toNat / 32) ++ [0] ++ hrp.map (fun c => c.toNat % 32)

/-- The 32 data characters in order of their value: "qpzry9x8gf2tvdw0s3jn54khce6mua7l". -/
def bechChars : Bytes :=
  [113, 112, 122, 114, 121, 57, 120, 56, 103, 102, 50, 116, 118, 100, 119, 48,
   115, 51, 106, 110, 53, 52, 107, 104, 99, 101, 54, 109, 117, 97, 55, 108]

def bechChar (v : UInt8) : UInt8 := bechChars.getD v.toNat 0

def toLower (c : UInt8) : UInt8 := if 0x41 ≤ c ∧ c ≤ 0x5a then c + 32 else c
def toUpper (c : UInt8) : UInt8 := if 0x61 ≤ c ∧ c ≤ 0x7a then c - 32 else c

def hasUpper (s : Bytes) : Prop := ∃ c ∈ s, 0x41 ≤ c ∧ c ≤ 0x5a
def hasLower (s : Bytes) : Prop := ∃ c ∈ s, 0x61 ≤ c ∧ c ≤ 0x7a

/-- `text` is a Bech32 text with (lower case) prefix `hrp` and data values `data`; the length limit
is not part of this. -/
structure Bech32 (text hrp data : Bytes) : Prop where
  form : ∃ sum : Bytes, sum.length = 6 ∧ (∀ v ∈ sum, v < 32) ∧
    text.map toLower = hrp ++ [0x31] ++ (data ++ sum).map bechChar ∧
    polymod (hrpExpand hrp ++ (data ++ sum).map UInt8.toNat) = 1
  hrp_ne : hrp ≠ []
  hrp_range : ∀ c ∈ hrp, 33 ≤ c ∧ c ≤ 126
  values : ∀ v ∈ data, v < 32
  one_case : ¬ (hasUpper text ∧ hasLower text)

/-- The `w` low bits of a number, most significant first. -/
def bitsOf (w n : Nat) : List Bool := (List.range w).reverse.map n.testBit

def groups5 (l : Bytes) : List Bool := l.flatMap fun b => bitsOf 5 b.toNat
def groups8 (l : Bytes) : List Bool := l.flatMap fun b => bitsOf 8 b.toNat

/-- BIP 141: lengths a witness program of a version may have. -/
def ProgramLength (ver : Nat) (n : Nat) : Prop :=
  2 ≤ n ∧ n ≤ 40 ∧ (ver = 0 → n = 20 ∨ n = 32)

/-- `text` is the segwit address of version `ver` and program `prog` on the network with prefix
`hrp` (BIP 173; the 90 character limit is not part of this). -/
def SegwitAddress (text hrp : Bytes) (ver : Nat) (prog : Bytes) : Prop :=
  ver ≤ 16 ∧ ProgramLength ver prog.length ∧
  ∃ data : Bytes, Bech32 text hrp (UInt8.ofNat ver :: data) ∧
    ∃ pad < 5, groups5 data = groups8 prog ++ List.replicate pad false

end UB.Spec
