import Verif.Model.Base

/-
Model of utility/trezor/bignum.c: 256-bit numbers as nine limbs of 30 bits in 32-bit words.
A `bignum256` is the list of its nine words, lowest first.  All word arithmetic is the wrapping arithmetic of the C code.
Loops of the form `tmp += e_i; out[i] = tmp & 0x3FFFFFFF; tmp >>= 30` are the function `carry30` applied to the list of the
`e_i` (32-bit `tmp`) or `carry30w` (64-bit `tmp`).
Not modelled: `bn_print`.  Decimal digits and bits are in Model/BignumFormat.
-/

namespace UB

/-- bignum.h:33-37 `bignum256`. -/
abbrev BN := List UInt32

namespace BN

/-- `tmp += e; val[i] = tmp & 0x3FFFFFFF; tmp >>= 30` for the words `e` one after the other. -/
def carry30 : UInt32 → List UInt32 → BN
  | _, [] => []
  | tmp, e :: es =>
    let t := tmp + e
    (t &&& 0x3FFFFFFF) :: carry30 (t >>> 30) es

/-- The same with a 64-bit `temp`, `val[i] = temp & 0x3FFFFFFF` being converted to 32 bits. -/
def carry30w : UInt64 → List UInt64 → BN
  | _, [] => []
  | tmp, e :: es =>
    let t := tmp + e
    (t &&& 0x3FFFFFFF).toUInt32 :: carry30w (t >>> 30) es

/-- bignum.c:57-64 `read_be`: four bytes at `off`. -/
def readWordBE (b : Bytes) (off : Nat) : UInt32 :=
  ((b.getD off 0).toUInt32 <<< 24) ||| ((b.getD (off + 1) 0).toUInt32 <<< 16) |||
    ((b.getD (off + 2) 0).toUInt32 <<< 8) ||| (b.getD (off + 3) 0).toUInt32

/-- bignum.c:66-72 `write_be`. -/
def writeWordBE (x : UInt32) : Bytes := [(x >>> 24).toUInt8, (x >>> 16).toUInt8, (x >>> 8).toUInt8, x.toUInt8]

/-- bignum.c:74-80 `read_le`. -/
def readWordLE (b : Bytes) (off : Nat) : UInt32 :=
  ((b.getD (off + 3) 0).toUInt32 <<< 24) ||| ((b.getD (off + 2) 0).toUInt32 <<< 16) |||
    ((b.getD (off + 1) 0).toUInt32 <<< 8) ||| (b.getD off 0).toUInt32

/-- bignum.c:82-88 `write_le`. -/
def writeWordLE (x : UInt32) : Bytes := [x.toUInt8, (x >>> 8).toUInt8, (x >>> 16).toUInt8, (x >>> 24).toUInt8]

/-- bignum.c:96-106 and 131-141, the loop of `bn_read_be` and `bn_read_le` over the words, lowest word first; `i` is the loop
counter. -/
def readLoop : UInt32 → Nat → List UInt32 → BN
  | temp, _, [] => [temp]
  | temp, i, limb :: ls =>
    let t := temp ||| (limb <<< (2 * i).toUInt32)
    (t &&& 0x3FFFFFFF) :: readLoop (limb >>> (30 - 2 * i).toUInt32) (i + 1) ls

/-- bignum.c:92-107 `bn_read_be`; the argument has 32 bytes. -/
def readBE (b : Bytes) : BN := readLoop 0 0 ((List.range 8).map fun i => readWordBE b ((7 - i) * 4))

/-- bignum.c:127-142 `bn_read_le`. -/
def readLE (b : Bytes) : BN := readLoop 0 0 ((List.range 8).map fun i => readWordLE b (i * 4))

/-- bignum.c:115-122 and 150-157, the loop of `bn_write_be` and `bn_write_le`: the words written, highest first, from the limbs
below the current one, highest first. -/
def writeLoop : UInt32 → Nat → List UInt32 → List UInt32
  | _, _, [] => []
  | temp, i, limb :: ls =>
    ((temp <<< (16 + 2 * i).toUInt32) ||| (limb >>> (14 - 2 * i).toUInt32)) :: writeLoop limb (i + 1) ls

/-- The words written by `bn_write_be`, highest first. -/
def words (a : BN) : List UInt32 := writeLoop (a.getD 8 0) 0 ((a.take 8).reverse)

/-- bignum.c:111-123 `bn_write_be`: the 32 bytes written. -/
def writeBE (a : BN) : Bytes := (a.words.map writeWordBE).flatten

/-- bignum.c:146-158 `bn_write_le`: word `i` goes to `out_number + (7 - i) * 4`. -/
def writeLE (a : BN) : Bytes := (a.words.reverse.map writeWordLE).flatten

/-- bignum.c:160-171 `bn_read_uint32`. -/
def ofUInt32 (n : UInt32) : BN := [n &&& 0x3FFFFFFF, n >>> 30, 0, 0, 0, 0, 0, 0, 0]

/-- bignum.c:173-184 `bn_read_uint64`. -/
def ofUInt64 (n : UInt64) : BN :=
  [(n &&& 0x3FFFFFFF).toUInt32, ((n >>> 30) &&& 0x3FFFFFFF).toUInt32, ((n >>> 30) >>> 30).toUInt32, 0, 0, 0, 0, 0, 0]

/-- bignum.c:224-230 `bn_zero`. -/
def zero : BN := [0, 0, 0, 0, 0, 0, 0, 0, 0]

/-- bignum.c:233-244 `bn_one`. -/
def one : BN := [1, 0, 0, 0, 0, 0, 0, 0, 0]

/-- bignum.h:88-94 `bn_is_even`, `bn_is_odd`. -/
def isOdd (a : BN) : Bool := (a.headD 0 &&& 1) == 1

/-- bignum.c:249-257 `bn_is_zero`. -/
def isZero (a : BN) : Bool := a.foldl (· ||| ·) 0 == 0

/-- bignum.c:262-272 `bn_is_less`: from the highest limb down. -/
def isLess (a b : BN) : Bool :=
  let (r1, r2) := (List.zip a b).reverse.foldl (fun (r : UInt32 × UInt32) (x : UInt32 × UInt32) =>
    ((r.1 <<< 1) ||| (if x.1 < x.2 then 1 else 0), (r.2 <<< 1) ||| (if x.1 > x.2 then 1 else 0))) (0, 0)
  decide (r1 > r2)

/-- bignum.c:277-284 `bn_is_equal`. -/
def isEqual (a b : BN) : Bool := (List.zipWith (· ^^^ ·) a b).foldl (· ||| ·) 0 == 0

/-- bignum.c:289-300 `bn_cmov`; `cond` is 0 or 1. -/
def cmov (cond : Bool) (t f : BN) : BN :=
  let tmask : UInt32 := if cond then 0 - 1 else 0 - 0
  let fmask := ~~~ tmask
  List.zipWith (fun x y => (x &&& tmask) ||| (y &&& fmask)) t f

/-- bignum.c:304-311 `bn_lshift`: every limb from the limb below (`prev`), which the downward loop has not changed yet. -/
def lshiftLoop : UInt32 → List UInt32 → BN
  | _, [] => []
  | prev, a :: as => (((a <<< (1 : UInt32)) &&& (0x3FFFFFFF : UInt32)) ||| ((prev &&& (0x20000000 : UInt32)) >>> (29 : UInt32))) :: lshiftLoop a as

/-- bignum.c:304-311 `bn_lshift`. -/
def lshift : BN → BN
  | [] => []
  | a :: as => ((a <<< (1 : UInt32)) &&& (0x3FFFFFFF : UInt32)) :: lshiftLoop a as

/-- bignum.c:315-322 `bn_rshift`. -/
def rshift : BN → BN
  | [] => []
  | [a] => [a >>> 1]
  | a :: b :: as => ((a >>> (1 : UInt32)) ||| ((b &&& (1 : UInt32)) <<< (29 : UInt32))) :: rshift (b :: as)

/-- bignum.c:364-371, the loop of `bn_mult_half` over the words `x[j+1] + (prime[j+1] & xodd)`. -/
def multHalfLoop : UInt32 → List UInt32 → BN
  | tmp1, [] => [tmp1]
  | tmp1, (tmp2 : UInt32) :: ts =>
    let t : UInt32 := tmp1 + ((tmp2 &&& (1 : UInt32)) <<< (29 : UInt32))
    (t &&& 0x3FFFFFFF) :: multHalfLoop ((t >>> 30) + (tmp2 >>> 1)) ts

/-- bignum.c:356-372 `bn_mult_half`. -/
def multHalf (x prime : BN) : BN :=
  let xodd : UInt32 := 0 - (x.headD 0 &&& 1)
  match List.zipWith (fun a p => a + (p &&& xodd)) x prime with
  | [] => []
  | t :: ts => multHalfLoop (t >>> 1) ts

/-- The first word `e` of the loop in `bn_fast_mod` and `bn_multiply_reduce_step`. -/
def redFirst (x p : UInt32) (coef : UInt32) : UInt64 := 0x2000000000000000 + x.toUInt64 - p.toUInt64 * coef.toUInt64

/-- The following words. -/
def redNext (x p : UInt32) (coef : UInt32) : UInt64 := 0x1FFFFFFF80000000 + x.toUInt64 - p.toUInt64 * coef.toUInt64

/-- The words of the subtraction loop for the limbs `x` and the prime's limbs. -/
def redTerms (coef : UInt32) : List UInt32 → List UInt32 → List UInt64
  | x :: xs, p :: ps => redFirst x p coef :: List.zipWith (fun x p => redNext x p coef) xs ps
  | _, _ => []

/-- bignum.c:501-518 `bn_fast_mod`. -/
def fastMod (x prime : BN) : BN := carry30w 0 (redTerms (x.getD 8 0 >>> 16) x prime)

/-- bignum.c:376-383 `bn_mult_k`; `k` is an 8-bit number. -/
def multK (x : BN) (k : UInt8) (prime : BN) : BN := fastMod (x.map fun a => k.toUInt32 * a) prime

/-- bignum.c:929-938 `bn_subtract`. -/
def subtract (a b : BN) : BN := carry30 1 (List.zipWith (fun a b => 0x3FFFFFFF + a - b) a b)

/-- bignum.c:387-393 `bn_mod`. -/
def mod (x prime : BN) : BN := cmov (isLess x prime) x (subtract x prime)

/-- bignum.c:404-411 and 413-421: the pairs of limbs multiplied for word `i` of the product. -/
def column (k x : BN) (i : Nat) : List (UInt32 × UInt32) :=
  if i < 9 then (List.range (i + 1)).map fun j => (k.getD j 0, x.getD (i - j) 0)
  else (List.range (17 - i)).map fun d => (k.getD (i - 8 + d) 0, x.getD (i - (i - 8 + d)) 0)

/-- bignum.c:403-422, the loops over the columns. -/
def mulLoop : UInt64 → List (List (UInt32 × UInt32)) → List UInt32
  | temp, [] => [temp.toUInt32]
  | temp, c :: cs =>
    let t := c.foldl (fun t p => t + p.1.toUInt64 * p.2.toUInt64) temp
    (t &&& 0x3FFFFFFF).toUInt32 :: mulLoop (t >>> 30) cs

/-- bignum.c:398-424 `bn_multiply_long`. -/
def multiplyLong (k x : BN) : List UInt32 := mulLoop 0 ((List.range 17).map (column k x))

/-- bignum.c:430-462 `bn_multiply_reduce_step` for `i` with `8 ≤ i ≤ 16`; the words `res[i-8 .. i+1]` are replaced. -/
def reduceStep (res : List UInt32) (prime : BN) (i : Nat) : List UInt32 :=
  let coef := (res.getD i 0 >>> 16) + (res.getD (i + 1) 0 <<< 14)
  let win := (res.drop (i - 8)).take 9
  res.take (i - 8) ++
    carry30w 0 (redTerms coef win prime ++ [0x1FFFFFFF80000000 + (res.getD (i + 1) 0).toUInt64]) ++
    res.drop (i + 2)

/-- bignum.c:469-483 `bn_multiply_reduce`. -/
def multiplyReduce (res : List UInt32) (prime : BN) : BN :=
  ([16, 15, 14, 13, 12, 11, 10, 9, 8].foldl (fun r i => reduceStep r prime i) res).take 9

/-- bignum.c:488-494 `bn_multiply`: the new value of `x`. -/
def multiply (k x prime : BN) : BN := multiplyReduce (multiplyLong k x) prime

/-- bignum.c:877-886 `bn_add`. -/
def add (a b : BN) : BN := carry30 0 (List.zipWith (· + ·) a b)

/-- bignum.c:888-895 `bn_addmod`. -/
def addmod (a b prime : BN) : BN := fastMod (List.zipWith (· + ·) a b) prime

/-- bignum.c:897-905 `bn_addi`. -/
def addi (a : BN) (b : UInt32) : BN := carry30 b a

/-- bignum.c:870-872 `bn_normalize`. -/
def normalize (a : BN) : BN := addi a 0

/-- bignum.c:907-912 `bn_subi`. -/
def subi (a : BN) (b : UInt32) (prime : BN) : BN :=
  match a with
  | [] => []
  | x :: xs => add ((x - b) :: xs) prime

/-- bignum.c:917-926 `bn_subtractmod`. -/
def subtractmod (a b prime : BN) : BN :=
  carry30 1 (List.zipWith (fun (ap : UInt32 × UInt32) b => 0x3FFFFFFF + ap.1 + 2 * ap.2 - b) (List.zip a prime) b)

/-- bignum.c:538-550, the inner loop of `bn_sqrt`: `j` iterations left, state `(x, res)`; `last` is `i == 8`. -/
def sqrtBits (prime : BN) (last : Bool) : Nat → UInt32 → BN × BN → BN × BN
  | 0, _, s => s
  | j + 1, limb, (x, res) =>
    if last && limb == 0 then (x, res)
    else
      let res := if limb &&& 1 != 0 then multiply x res prime else res
      sqrtBits prime last j (limb >>> 1) (multiply x x prime, res)

/-- bignum.c:523-557 `bn_sqrt`. -/
def sqrt (x prime : BN) : BN :=
  let p := rshift (rshift (addi prime 1))
  let s := (List.range 9).foldl (fun s i => sqrtBits prime (i == 8) 30 (p.getD i 0) s) (x, one)
  mod s.2 prime

end BN

end UB
