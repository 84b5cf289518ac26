import Verif.Spec.Sha2

/-
Specification of RIPEMD-160 (Dobbertin, Bosselaers, Preneel 1996), following the
pseudo-code of the paper.
-/

namespace UB.Spec.Rmd

def rol (x : UInt32) (n : Nat) : UInt32 :=
  x <<< UInt32.ofNat n ||| x >>> UInt32.ofNat (32 - n)

/-- The five nonlinear functions; `f j` for step `j`. -/
def f (j : Nat) (x y z : UInt32) : UInt32 :=
  if j < 16 then x ^^^ y ^^^ z
  else if j < 32 then (x &&& y) ||| (~~~x &&& z)
  else if j < 48 then (x ||| ~~~y) ^^^ z
  else if j < 64 then (x &&& z) ||| (y &&& ~~~z)
  else x ^^^ (y ||| ~~~z)

/-- Added constants: integer parts of `2^30` times the square roots of 2, 3, 5, 7. -/
def k (j : Nat) : UInt32 :=
  [0, UInt32.ofNat (iroot 2 (2 * 2 ^ 60) 33), UInt32.ofNat (iroot 2 (3 * 2 ^ 60) 33),
    UInt32.ofNat (iroot 2 (5 * 2 ^ 60) 33), UInt32.ofNat (iroot 2 (7 * 2 ^ 60) 33)].getD (j / 16) 0

/-- Added constants of the parallel line: cube roots of 2, 3, 5, 7. -/
def k' (j : Nat) : UInt32 :=
  [UInt32.ofNat (iroot 3 (2 * 2 ^ 90) 33), UInt32.ofNat (iroot 3 (3 * 2 ^ 90) 33),
    UInt32.ofNat (iroot 3 (5 * 2 ^ 90) 33), UInt32.ofNat (iroot 3 (7 * 2 ^ 90) 33), 0].getD (j / 16) 0

/-- The permutation ρ of the message words. -/
def rho (i : Nat) : Nat := [7, 4, 13, 1, 10, 6, 15, 3, 12, 0, 9, 5, 2, 14, 11, 8].getD i 0

/-- The permutation π(i) = 9i + 5 mod 16. -/
def pi (i : Nat) : Nat := (9 * i + 5) % 16

/-- Selection of message word, left line: round `n` uses `ρ^n`. -/
def r (j : Nat) : Nat := Nat.repeat rho (j / 16) (j % 16)

/-- Selection of message word, right line: round `n` uses `ρ^n ∘ π`. -/
def r' (j : Nat) : Nat := Nat.repeat rho (j / 16) (pi (j % 16))

/-- Shift for message word `i` in round `n` (the table of the paper). -/
def shift (n i : Nat) : Nat :=
  ([[11, 14, 15, 12, 5, 8, 7, 9, 11, 13, 14, 15, 6, 7, 9, 8],
    [12, 13, 11, 15, 6, 9, 9, 7, 12, 15, 11, 13, 7, 8, 7, 7],
    [13, 15, 14, 11, 7, 7, 6, 8, 13, 14, 13, 12, 5, 5, 6, 9],
    [14, 11, 12, 14, 8, 6, 5, 5, 15, 12, 15, 14, 9, 9, 8, 6],
    [15, 12, 13, 13, 9, 5, 8, 6, 14, 11, 12, 11, 8, 6, 5, 5]].getD n []).getD i 0

def s (j : Nat) : Nat := shift (j / 16) (r j)
def s' (j : Nat) : Nat := shift (j / 16) (r' j)

/-- Working variables and chaining value. -/
structure V where
  (a b c d e : UInt32)
deriving DecidableEq, Repr

def V.toList (v : V) : List UInt32 := [v.a, v.b, v.c, v.d, v.e]

/-- `T := rol_s(A + f(B,C,D) + X + K) + E; A := E; E := D; D := rol_10(C); C := B; B := T`. -/
def step (v : V) (fv : UInt32 → UInt32 → UInt32 → UInt32) (x kk : UInt32) (sh : Nat) : V :=
  ⟨v.e, rol (v.a + fv v.b v.c v.d + x + kk) sh + v.e, v.b, rol v.c 10, v.d⟩

def h0 : V := ⟨0x67452301, 0xEFCDAB89, 0x98BADCFE, 0x10325476, 0xC3D2E1F0⟩

/-- The compression function on sixteen words. -/
def compress (h : V) (X : List UInt32) : V :=
  let l := (List.range 80).foldl (fun v j => step v (f j) (X.getD (r j) 0) (k j) (s j)) h
  let p := (List.range 80).foldl (fun v j => step v (f (79 - j)) (X.getD (r' j) 0) (k' j) (s' j)) h
  ⟨h.b + l.c + p.d, h.c + l.d + p.e, h.d + l.e + p.a, h.e + l.a + p.b, h.a + l.b + p.c⟩

/-- Words of a block, little-endian. -/
def words (bs : Bytes) : List UInt32 := (chunks 4 bs).map fun b => UInt32.ofNat (leNat b)

/-- MD4-style padding: 0x80, zeros, the bit length in eight bytes little-endian. -/
def pad (m : Bytes) : Bytes :=
  m ++ [0x80] ++ zeros ((64 - (m.length + 9) % 64) % 64) ++ leBytes 8 (8 * m.length)

def chain (h : V) (bs : Bytes) : V := (chunks 64 bs).foldl (fun h b => compress h (words b)) h

def hash (m : Bytes) : Bytes := (chain h0 (pad m)).toList.flatMap fun w => leBytes 4 w.toNat

end UB.Spec.Rmd

namespace UB.Spec

def ripemd160 (m : Bytes) : Bytes := Rmd.hash m
def hash160 (m : Bytes) : Bytes := ripemd160 (sha256 m)
def hash256 (m : Bytes) : Bytes := sha256 (sha256 m)

end UB.Spec
