import Verif.Spec.Ints

/-
Specification of SHA-256 and SHA-512 (FIPS 180-4), HMAC (RFC 2104), PBKDF2
(RFC 2898) and the Bitcoin composites, on whole messages.

The round constants and initial values are specified the way the standard does:
first 32 (64) bits of the fractional parts of the cube (square) roots of the
first primes.
-/

namespace UB.Spec

/-- Big-endian value of a byte string. -/
def beNat (bs : Bytes) : Nat := bs.foldl (fun n b => n * 256 + b.toNat) 0

/-- The `k` low bytes of `n`, most significant first. -/
def beBytes (k n : Nat) : Bytes := (leBytes k n).reverse

/-- Little-endian value of a byte string. -/
def leNat (bs : Bytes) : Nat := bs.foldr (fun b n => b.toNat + 256 * n) 0

/-- Consecutive pieces of length `n` (an incomplete last piece is left out). -/
def chunks {α : Type} (n : Nat) (l : List α) : List (List α) :=
  (List.range (l.length / n)).map fun i => (l.drop (i * n)).take n

/-- Primes below `bound`, in order. -/
def primesBelow (bound : Nat) : List Nat :=
  (List.range bound).filter fun n => 2 ≤ n ∧ ∀ d ∈ List.range n, 2 ≤ d → n % d ≠ 0

/-- Integer `k`-th root of `n`, for roots below `2^bits`. -/
def iroot (k n bits : Nat) : Nat :=
  (List.range bits).reverse.foldl (fun r b => if (r + 2 ^ b) ^ k ≤ n then r + 2 ^ b else r) 0

/-- First `bits` bits of the fractional part of the `k`-th root of `p`. -/
def rootFrac (k bits p : Nat) : Nat := iroot k (p * 2 ^ (bits * k)) (bits + 8) % 2 ^ bits

/-- Eight working variables. -/
structure Regs (W : Type) where
  (a b c d e f g h : W)
deriving DecidableEq, Repr

def Regs.toList {W : Type} (r : Regs W) : List W := [r.a, r.b, r.c, r.d, r.e, r.f, r.g, r.h]

/-- What distinguishes the members of the SHA-2 family. -/
structure Sha2 (W : Type) where
  /-- bytes in a word -/
  wordBytes : Nat
  rounds : Nat
  ofNat : Nat → W
  toNat : W → Nat
  ch : W → W → W → W
  maj : W → W → W → W
  bigS0 : W → W
  bigS1 : W → W
  smS0 : W → W
  smS1 : W → W
  k : Nat → W
  h0 : Regs W

namespace Sha2
variable {W : Type} [Add W] [Inhabited W] (P : Sha2 W)

/-- Message schedule after `n` extension steps (FIPS 180-4, 6.2.2 step 1 / 6.4.2 step 1). -/
def schedule (M : List W) : Nat → List W
  | 0 => M
  | n + 1 =>
    let w := schedule M n
    let t := w.length
    w ++ [P.smS1 (w.getD (t - 2) default) + w.getD (t - 7) default
      + P.smS0 (w.getD (t - 15) default) + w.getD (t - 16) default]

/-- One round (FIPS 180-4, 6.2.2 step 3 / 6.4.2 step 3). -/
def round (r : Regs W) (k w : W) : Regs W :=
  let t1 := r.h + P.bigS1 r.e + P.ch r.e r.f r.g + k + w
  let t2 := P.bigS0 r.a + P.maj r.a r.b r.c
  ⟨t1 + t2, r.a, r.b, r.c, r.d + t1, r.e, r.f, r.g⟩

/-- The compression function on a block of sixteen words. -/
def compress (H : Regs W) (M : List W) : Regs W :=
  let w := P.schedule M (P.rounds - 16)
  let r := (List.range P.rounds).foldl (fun r t => P.round r (P.k t) (w.getD t default)) H
  ⟨r.a + H.a, r.b + H.b, r.c + H.c, r.d + H.d, r.e + H.e, r.f + H.f, r.g + H.g, r.h + H.h⟩

/-- The words of a block, big-endian. -/
def words (bs : Bytes) : List W := (chunks P.wordBytes bs).map fun b => P.ofNat (beNat b)

def blockBytes : Nat := 16 * P.wordBytes

/-- Padding (FIPS 180-4, 5.1): a one bit, the least number of zeros, and the bit
length in two words. -/
def pad (m : Bytes) : Bytes :=
  let b := P.blockBytes
  let k := (b - (m.length + 1 + 2 * P.wordBytes) % b) % b
  m ++ [0x80] ++ zeros k ++ beBytes (2 * P.wordBytes) (8 * m.length)

/-- Chain the compression function over whole blocks. -/
def chain (H : Regs W) (bs : Bytes) : Regs W :=
  (chunks P.blockBytes bs).foldl (fun H b => P.compress H (P.words b)) H

/-- Bytes of a chaining value. -/
def out (H : Regs W) : Bytes := H.toList.flatMap fun w => beBytes P.wordBytes (P.toNat w)

/-- The hash of a message. -/
def hash (m : Bytes) : Bytes := P.out (P.chain P.h0 (P.pad m))

end Sha2

def rotr32 (x : UInt32) (n : UInt32) : UInt32 := x >>> n ||| x <<< (32 - n)
def rotr64 (x : UInt64) (n : UInt64) : UInt64 := x >>> n ||| x <<< (64 - n)

/-- FIPS 180-4, 4.1.2, 4.2.2, 5.3.3. -/
def sha256P : Sha2 UInt32 where
  wordBytes := 4
  rounds := 64
  ofNat := UInt32.ofNat
  toNat := UInt32.toNat
  ch x y z := (x &&& y) ^^^ (~~~x &&& z)
  maj x y z := (x &&& y) ^^^ (x &&& z) ^^^ (y &&& z)
  bigS0 x := rotr32 x 2 ^^^ rotr32 x 13 ^^^ rotr32 x 22
  bigS1 x := rotr32 x 6 ^^^ rotr32 x 11 ^^^ rotr32 x 25
  smS0 x := rotr32 x 7 ^^^ rotr32 x 18 ^^^ (x >>> 3)
  smS1 x := rotr32 x 17 ^^^ rotr32 x 19 ^^^ (x >>> 10)
  k t := UInt32.ofNat (rootFrac 3 32 ((primesBelow 410).getD t 0))
  h0 :=
    let h (i : Nat) := UInt32.ofNat (rootFrac 2 32 ((primesBelow 410).getD i 0))
    ⟨h 0, h 1, h 2, h 3, h 4, h 5, h 6, h 7⟩

/-- FIPS 180-4, 4.1.3, 4.2.3, 5.3.5. -/
def sha512P : Sha2 UInt64 where
  wordBytes := 8
  rounds := 80
  ofNat := UInt64.ofNat
  toNat := UInt64.toNat
  ch x y z := (x &&& y) ^^^ (~~~x &&& z)
  maj x y z := (x &&& y) ^^^ (x &&& z) ^^^ (y &&& z)
  bigS0 x := rotr64 x 28 ^^^ rotr64 x 34 ^^^ rotr64 x 39
  bigS1 x := rotr64 x 14 ^^^ rotr64 x 18 ^^^ rotr64 x 41
  smS0 x := rotr64 x 1 ^^^ rotr64 x 8 ^^^ (x >>> 7)
  smS1 x := rotr64 x 19 ^^^ rotr64 x 61 ^^^ (x >>> 6)
  k t := UInt64.ofNat (rootFrac 3 64 ((primesBelow 410).getD t 0))
  h0 :=
    let h (i : Nat) := UInt64.ofNat (rootFrac 2 64 ((primesBelow 410).getD i 0))
    ⟨h 0, h 1, h 2, h 3, h 4, h 5, h 6, h 7⟩

def sha256 (m : Bytes) : Bytes := sha256P.hash m
def sha512 (m : Bytes) : Bytes := sha512P.hash m

/-- HMAC (RFC 2104) for a hash with block length `b`. -/
def hmac (hash : Bytes → Bytes) (b : Nat) (key m : Bytes) : Bytes :=
  let k0 := if key.length > b then hash key else key
  let k := k0 ++ zeros (b - k0.length)
  hash (k.map (· ^^^ 0x5c) ++ hash (k.map (· ^^^ 0x36) ++ m))

def hmacSha256 : Bytes → Bytes → Bytes := hmac sha256 64
def hmacSha512 : Bytes → Bytes → Bytes := hmac sha512 128

/-- Bytewise exclusive or. -/
def xorBytes (x y : Bytes) : Bytes := List.zipWith (· ^^^ ·) x y

/-- `U_{n+1}` of PBKDF2 (RFC 2898, 5.2). -/
def pbkdf2U (prf : Bytes → Bytes → Bytes) (pass salt : Bytes) (blocknr : Nat) : Nat → Bytes
  | 0 => prf pass (salt ++ beBytes 4 blocknr)
  | n + 1 => prf pass (pbkdf2U prf pass salt blocknr n)

/-- `F(P, S, c, i) = U_1 xor ... xor U_c` for `c = n + 1`. -/
def pbkdf2F (prf : Bytes → Bytes → Bytes) (pass salt : Bytes) (blocknr : Nat) : Nat → Bytes
  | 0 => pbkdf2U prf pass salt blocknr 0
  | n + 1 => xorBytes (pbkdf2F prf pass salt blocknr n) (pbkdf2U prf pass salt blocknr (n + 1))

/-- PBKDF2 (RFC 2898, 5.2) with `c ≥ 1` iterations: the first `dkLen` bytes of
`T_1 || T_2 || ...`, where each block has `hLen` bytes. -/
def pbkdf2 (prf : Bytes → Bytes → Bytes) (hLen : Nat) (pass salt : Bytes) (c dkLen : Nat) : Bytes :=
  ((List.range ((dkLen + hLen - 1) / hLen)).flatMap fun i =>
    pbkdf2F prf pass salt (i + 1) (c - 1)).take dkLen

/-- BIP-340 tagged hash. -/
def taggedHash (tag m : Bytes) : Bytes := sha256 (sha256 tag ++ sha256 tag ++ m)

end UB.Spec
