import Verif.Spec.Sha2

/-
Specification of SHA-3 (FIPS 202) on messages of whole bytes.  A state is the list of its 25 lanes, lane (x, y) at position x + 5 y.
-/

namespace UB.Spec.Sha3

def lane (s : List UInt64) (x y : Nat) : UInt64 := s.getD (x + 5 * y) 0

def build (f : Nat → Nat → UInt64) : List UInt64 := (List.range 25).map fun i => f (i % 5) (i / 5)

def rotl (w : UInt64) (n : Nat) : UInt64 := w <<< UInt64.ofNat n ||| w >>> UInt64.ofNat (64 - n)

/-- FIPS 202, 3.2.1. -/
def parity (s : List UInt64) (x : Nat) : UInt64 := lane s x 0 ^^^ lane s x 1 ^^^ lane s x 2 ^^^ lane s x 3 ^^^ lane s x 4
def theta (s : List UInt64) : List UInt64 := build fun x y => lane s x y ^^^ (parity s ((x + 4) % 5) ^^^ rotl (parity s ((x + 1) % 5)) 1)

/-- FIPS 202, 3.2.2: the lane visited in step `t`, and the offset of a lane. -/
def rhoLane : Nat → Nat × Nat
  | 0 => (1, 0)
  | t + 1 => ((rhoLane t).2, (2 * (rhoLane t).1 + 3 * (rhoLane t).2) % 5)
def rhoOffset (x y : Nat) : Nat :=
  match (List.range 24).find? fun t => rhoLane t = (x, y) with
  | some t => (t + 1) * (t + 2) / 2 % 64
  | none => 0
def rho (s : List UInt64) : List UInt64 := build fun x y => rotl (lane s x y) (rhoOffset x y)

/-- FIPS 202, 3.2.3. -/
def pi (s : List UInt64) : List UInt64 := build fun x y => lane s ((x + 3 * y) % 5) x

/-- FIPS 202, 3.2.4. -/
def chi (s : List UInt64) : List UInt64 := build fun x y => lane s x y ^^^ (~~~lane s ((x + 1) % 5) y &&& lane s ((x + 2) % 5) y)

/-- FIPS 202, 3.2.5, algorithm 5: the register after `t` steps, its bit 0 first. -/
def register : Nat → List Bool
  | 0 => [true, false, false, false, false, false, false, false]
  | t + 1 =>
    let r := false :: register t
    let b i := r.getD i false
    [b 0 ^^ b 8, b 1, b 2, b 3, b 4 ^^ b 8, b 5 ^^ b 8, b 6 ^^ b 8, b 7]
def rcBit (t : Nat) : Bool := (register (t % 255)).headD false
def roundConstant (i : Nat) : UInt64 := UInt64.ofNat (((List.range 7).map fun j => if rcBit (j + 7 * i) then 2 ^ (2 ^ j - 1) else 0).sum)
def iota (i : Nat) (s : List UInt64) : List UInt64 := build fun x y => if x = 0 ∧ y = 0 then lane s 0 0 ^^^ roundConstant i else lane s x y

/-- FIPS 202, 3.3: Keccak-f[1600]. -/
def keccakF (s : List UInt64) : List UInt64 := (List.range 24).foldl (fun s i => iota i (chi (pi (rho (theta s))))) s

/-- The lanes of a block of at most 200 bytes, the capacity being zero. -/
def blockLanes (b : Bytes) : List UInt64 := ((chunks 8 b).map fun w => UInt64.ofNat (leNat w)) ++ List.replicate (25 - b.length / 8) 0

/-- FIPS 202, 4: absorbing a block. -/
def absorb (s : List UInt64) (b : Bytes) : List UInt64 := keccakF (List.zipWith (· ^^^ ·) s (blockLanes b))

/-- Suffix 01 and padding pad10*1 of a message of whole bytes (FIPS 202, B.2). -/
def padding (rate len : Nat) : Bytes := if rate - len % rate = 1 then [0x86] else 0x06 :: (zeros (rate - len % rate - 2) ++ [0x80])

/-- The bytes of a state. -/
def stateBytes (s : List UInt64) : Bytes := (s.map fun w => leBytes 8 w.toNat).flatten

/-- FIPS 202, 6.1: SHA3-d for d = 224, 256, 384, 512 (the digest is shorter than a block). -/
def hash (d : Nat) (m : Bytes) : Bytes :=
  let rate := (1600 - 2 * d) / 8
  (stateBytes ((chunks rate (m ++ padding rate m.length)).foldl absorb (List.replicate 25 0))).take (d / 8)

end UB.Spec.Sha3
