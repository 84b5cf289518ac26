import Verif.Spec.Sha2
import Verif.Spec.Conversion

/-
BIP39: entropy of 128 to 256 bits and the first bits of its SHA-256 are cut into groups of eleven
bits, each of which selects a word.
-/

namespace UB.Spec

/-- Entropy followed by its checksum, one bit for 32 bits of entropy. -/
def mnemonicBits (e : Bytes) : List Bool := e.flatMap bits8 ++ ((sha256 e).flatMap bits8).take (e.length / 4)

/-- The first `n` groups of eleven bits as numbers. -/
def groups11 : Nat → List Bool → List Nat
  | 0, _ => []
  | n + 1, l => bitsValue (l.take 11) :: groups11 n (l.drop 11)

/-- Words separated by single spaces. -/
def spaced (ws : List Bytes) : Bytes := [0x20].intercalate ws

/-- The words for some entropy: three for 32 bits. -/
def mnemonicWords (words : List Bytes) (e : Bytes) : List Bytes := (groups11 (e.length / 4 * 3) (mnemonicBits e)).map fun k => words.getD k []

def mnemonic (words : List Bytes) (e : Bytes) : Bytes := spaced (mnemonicWords words e)

/-- Sizes of entropy in BIP39: 128, 160, 192, 224 or 256 bits. -/
def MnemonicSize (n : Nat) : Prop := n = 16 ∨ n = 20 ∨ n = 24 ∨ n = 28 ∨ n = 32

end UB.Spec
