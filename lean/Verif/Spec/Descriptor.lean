import Verif.Model.Base

/-
Specification: checksums of output script descriptors (BIP 380).
-/

namespace UB.Spec

/-- BIP 380: the characters of descriptors, three groups. -/
def descChars : Bytes :=
  [0x30, 0x31, 0x32, 0x33, 0x34, 0x35, 0x36, 0x37, 0x38, 0x39, 0x28, 0x29, 0x5b, 0x5d, 0x2c, 0x27,
   0x2f, 0x2a, 0x61, 0x62, 0x63, 0x64, 0x65, 0x66, 0x67, 0x68, 0x40, 0x3a, 0x24, 0x25, 0x7b, 0x7d,
   0x49, 0x4a, 0x4b, 0x4c, 0x4d, 0x4e, 0x4f, 0x50, 0x51, 0x52, 0x53, 0x54, 0x55, 0x56, 0x57, 0x58,
   0x59, 0x5a, 0x26, 0x2b, 0x2d, 0x2e, 0x3b, 0x3c, 0x3d, 0x3e, 0x3f, 0x21, 0x5e, 0x5f, 0x7c, 0x7e,
   0x69, 0x6a, 0x6b, 0x6c, 0x6d, 0x6e, 0x6f, 0x70, 0x71, 0x72, 0x73, 0x74, 0x75, 0x76, 0x77, 0x78,
   0x79, 0x7a, 0x41, 0x42, 0x43, 0x44, 0x45, 0x46, 0x47, 0x48, 0x60, 0x23, 0x22, 0x5c, 0x20]

/-- BIP 380: the symbols of the checksum. -/
def descSymbolChars : Bytes :=
  [0x71, 0x70, 0x7a, 0x72, 0x79, 0x39, 0x78, 0x38, 0x67, 0x66, 0x32, 0x74, 0x76, 0x64, 0x77, 0x30,
   0x73, 0x33, 0x6a, 0x6e, 0x35, 0x34, 0x6b, 0x68, 0x63, 0x65, 0x36, 0x6d, 0x75, 0x61, 0x37, 0x6c]

def descGen : List Nat := [0xf5dee51989, 0xa9fdca3312, 0x1bab10e32d, 0x3706b1677a, 0x644d626ffd]

/-- BIP 380 `descsum_polymod`, one symbol. -/
def descStep (chk v : Nat) : Nat :=
  descGen.zipIdx.foldl (fun c (g, i) => if (chk >>> 35).testBit i then c ^^^ g else c) (((chk &&& 0x7ffffffff) <<< 5) ^^^ v)

def descPolymod (vs : List Nat) : Nat := vs.foldl descStep 1

/-- BIP 380 `descsum_expand`: positions to symbols. -/
def descExpand : List Nat → List Nat
  | a :: b :: c :: l => [a % 32, b % 32, c % 32, a / 32 * 9 + b / 32 * 3 + c / 32] ++ descExpand l
  | [a, b] => [a % 32, b % 32, a / 32 * 3 + b / 32]
  | [a] => [a % 32, a / 32]
  | [] => []

/-- The checksum as a number of 40 bits. -/
def descNumber (text : Bytes) : Nat := descPolymod (descExpand (text.map descChars.idxOf) ++ List.replicate 8 0) ^^^ 1

/-- BIP 380 `descsum_create`: the eight characters of the checksum. -/
def descChecksum (text : Bytes) : Bytes := (List.range 8).map fun i => descSymbolChars.getD (descNumber text / 32 ^ (7 - i) % 32) 0

end UB.Spec
