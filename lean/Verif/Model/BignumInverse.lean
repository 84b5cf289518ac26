import Verif.Model.Bignum

/-
Model of `bn_inverse` (utility/trezor/bignum.c:599-868, the variant for USE_INVERSE_FAST = 1, options.h).
Words are 32-bit machine words and temporaries 64-bit words, as in the C code.  `ub` stands for every way of having no result:
an access outside an array, a failed `assert`, a loop that does not end.  `int k` is a natural number (it stays below 512).
-/

namespace UB.BN

/-- bignum.c:602-605 `struct combo`. -/
structure Combo where
  a : List UInt32
  len1 : Nat
deriving DecidableEq

/-- bignum.c:623-636: limbs of 30 bits to words of 32 bits; `temp32`, loop counter, limbs from `i + 1` on. -/
def packLoop : UInt32 → Nat → List UInt32 → List UInt32
  | _, _, [] => []
  | temp, i, v :: vs => (temp ||| (v <<< (30 - 2 * i).toUInt32)) :: packLoop (v >>> (2 + 2 * i).toUInt32) (i + 1) vs

/-- The eight words of a number. -/
def pack : BN → List UInt32
  | [] => []
  | v :: vs => packLoop v 0 vs

/-- bignum.c:681-688: `while (even->a[even->len1 - 1] == 0) even->len1--`.  For `len1 = 0` the condition reads `a[-1]`. -/
def trimLen (a : List UInt32) : Nat → C Nat
  | 0 => .ub
  | n + 1 => if a.getD n 0 == 0 then trimLen a n else .ok (n + 1)

/-- bignum.c:691-700: `while (even->a[0] == 0)` move everything down by a word; gives the array, `len1` and `k`.
(`len1` is at least 1 and `a[len1 - 1]` is not zero when the loop starts, so it ends before `len1` gets to 0.) -/
def shiftWords : List UInt32 → Nat → Nat → C (List UInt32 × Nat × Nat)
  | _, 0, _ => .ub
  | a, n + 1, k => if a.headD 0 == 0 then shiftWords (a.drop 1 ++ [0]) n (k + 32) else .ok (a, n + 1, k)

/-- bignum.c:702-705: `while ((w & (1u << j)) == 0) j++`; `fuel` bits are left. -/
def lowZeros (w : UInt32) : Nat → Nat → C Nat
  | 0, _ => .ub
  | fuel + 1, j => if w &&& ((1 : UInt32) <<< j.toUInt32) == 0 then lowZeros w fuel (j + 1) else .ok j

/-- bignum.c:708-711: shift the first part right by `j` bits. -/
def shrWords (j : Nat) : List UInt32 → List UInt32
  | [] => []
  | [x] => [x >>> j.toUInt32]
  | x :: y :: r => ((x >>> j.toUInt32) ||| (y <<< (32 - j).toUInt32)) :: shrWords j (y :: r)

/-- bignum.c:719-722: shift the second part left by `j` bits. -/
def shlWords (j : Nat) : List UInt32 → List UInt32
  | [] => []
  | [x] => [x <<< j.toUInt32]
  | x :: y :: r => ((x <<< j.toUInt32) ||| (y >>> (32 - j).toUInt32)) :: shlWords j (y :: r)

/-- bignum.c:706-725: both shifts; the second part starts one word earlier if the first one lost its top word. -/
def shiftBits (c : Combo) (j : Nat) : C Combo :=
  if j = 0 then .ok c
  else
    let a := shrWords j (c.a.take c.len1) ++ c.a.drop c.len1
    let len1 := if a.getD (c.len1 - 1) 0 == 0 then c.len1 - 1 else c.len1
    if len1 > 8 then .ub
    else .ok ⟨a.take len1 ++ shlWords j (a.drop len1), len1⟩

/-- bignum.c:680-725: make `even` odd; also gives the new `k`. -/
def makeOdd (c : Combo) (k : Nat) : C (Combo × Nat) := do
  let len1 ← trimLen c.a c.len1
  let (a, len1, k) ← shiftWords c.a len1 k
  let j ← lowZeros (a.headD 0) 32 0
  let c ← shiftBits ⟨a, len1⟩ j
  .ok (c, k + j)

/-- bignum.c:737-741: compare words from the top. -/
def cmpWords : List UInt32 → List UInt32 → Ordering
  | x :: xs, y :: ys => if x == y then cmpWords xs ys else if x > y then .gt else .lt
  | _, _ => .eq

/-- bignum.c:733-741 `cmp`. -/
def cmpFirst (us vr : Combo) : Ordering :=
  if us.len1 = vr.len1 then cmpWords (us.a.take us.len1).reverse (vr.a.take vr.len1).reverse
  else if us.len1 > vr.len1 then .gt else .lt

/-- `temp += e; a = temp & 0xFFFFFFFF; temp >>= 32` for the addends one after the other. -/
def carry32 : UInt64 → List UInt64 → List UInt32
  | _, [] => []
  | tmp, e :: es =>
    let t := tmp + e
    t.toUInt32 :: carry32 (t >>> 32) es

/-- bignum.c:753-762: the addends of the subtraction of the first parts. -/
def subTerms : List UInt32 → List UInt32 → List UInt64
  | e :: es, o :: os => (0xFFFFFFFF + e.toUInt64 - o.toUInt64) :: subTerms es os
  | es, [] => es.map fun e => 0xFFFFFFFF + e.toUInt64
  | [], _ => []

/-- bignum.c:765-774: the addends of the addition of the second parts, lowest word first. -/
def addTerms : List UInt32 → List UInt32 → List UInt64
  | o :: os, e :: es => (o.toUInt64 + e.toUInt64) :: addTerms os es
  | os, [] => os.map UInt32.toUInt64
  | [], _ => []

/-- bignum.c:752-774: `even` and `odd` after one step. -/
def combine (even odd : Combo) : Combo × Combo :=
  (⟨carry32 1 (subTerms (even.a.take even.len1) (odd.a.take odd.len1)) ++ even.a.drop even.len1, even.len1⟩,
   ⟨odd.a.take odd.len1 ++ (carry32 0 (addTerms (odd.a.drop odd.len1).reverse (even.a.drop even.len1).reverse)).reverse, odd.len1⟩)

/-- `assert(b)`. -/
def require (b : Bool) : C Unit := if b then .ok () else .ub

/-- bit 0 of a word is set. -/
def bit0 (w : UInt32) : Bool := w &&& 1 == 1

/-- bignum.c:658-801, the loop: `evenVr` says that `even` is `vr`; gives `us` and `k` when it is left. -/
def inverseLoop : Nat → Combo → Combo → Bool → Nat → C (Combo × Nat)
  | 0, _, _, _, _ => .ub
  | fuel + 1, us, vr, evenVr, k => do
    let odd := if evenVr then us else vr
    let even := if evenVr then vr else us
    require (bit0 (odd.a.headD 0) && bit0 (odd.a.getD 8 0))
    let (even, k) ← makeOdd even k
    require (bit0 (odd.a.headD 0) && bit0 (odd.a.getD 8 0) && bit0 (even.a.headD 0) && !bit0 (even.a.getD 8 0))
    let us := if evenVr then odd else even
    let vr := if evenVr then even else odd
    match cmpFirst us vr with
    | .eq => .ok (us, k)
    | .gt =>
      let (e, o) := combine us vr
      require (bit0 (o.a.headD 0) && bit0 (o.a.getD 8 0) && !bit0 (e.a.headD 0))
      inverseLoop fuel e o false k
    | .lt =>
      let (e, o) := combine vr us
      require (bit0 (o.a.headD 0) && bit0 (o.a.getD 8 0) && !bit0 (e.a.headD 0))
      inverseLoop fuel o e true k

/-- bignum.c:820-823: `while (amone) { amone *= amone; inverse *= (amone + 1); }`. -/
def wordInverse : Nat → UInt32 → UInt32 → C UInt32
  | fuel, amone, inv =>
    if amone == 0 then .ok inv
    else match fuel with
      | 0 => .ub
      | fuel + 1 => wordInverse fuel (amone * amone) (inv * (amone * amone + 1))

/-- bignum.c:835-840: the rest of a division by 2^32, `s` and `pp` from word 1 on. -/
def divLoop (factor : UInt32) : UInt64 → List UInt32 → List UInt32 → List UInt32
  | temp, s :: ss, p :: ps =>
    let t := temp + (s.toUInt64 + p.toUInt64 * factor.toUInt64)
    t.toUInt32 :: divLoop factor (t >>> 32) ss ps
  | temp, _, _ => [temp.toUInt32]

/-- bignum.c:825-842: divide `s` (words `us.a[8]`, ..., `us.a[1]`) by 2^32. -/
def divWord (inv : UInt32) (pp s : List UInt32) : C (List UInt32) :=
  match s, pp with
  | s0 :: ss, p0 :: ps =>
    let factor := inv * s0
    let temp := s0.toUInt64 + p0.toUInt64 * factor.toUInt64
    if temp &&& 0xFFFFFFFF == 0 then .ok (divLoop factor (temp >>> 32) ss ps) else .ub
  | _, _ => .ub

/-- bignum.c:852-856: the rest of a division by 2^k. -/
def divBitsLoop (k : Nat) (factor : UInt32) : UInt64 → List UInt32 → List UInt32 → List UInt32
  | temp, s :: ss, p :: ps =>
    let t := temp + ((s.toUInt64 + p.toUInt64 * factor.toUInt64) <<< (32 - k).toUInt64)
    t.toUInt32 :: divBitsLoop k factor (t >>> 32) ss ps
  | temp, _, _ => [temp.toUInt32]

/-- bignum.c:843-858: divide by 2^k, `0 < k < 32`. -/
def divBits (inv : UInt32) (k : Nat) (pp s : List UInt32) : C (List UInt32) :=
  match s, pp with
  | s0 :: ss, p0 :: ps =>
    let mask : UInt32 := ((1 : UInt32) <<< k.toUInt32) - 1
    let factor := (inv * s0) &&& mask
    let temp := (s0.toUInt64 + p0.toUInt64 * factor.toUInt64) >>> k.toUInt64
    if (s0 + p0 * factor) &&& mask == 0 then .ok (divBitsLoop k factor temp ss ps) else .ub
  | _, _ => .ub

/-- bignum.c:825-842: the loop `while (k >= 32)`, `n` rounds. -/
def divWords (inv : UInt32) (pp : List UInt32) : Nat → List UInt32 → C (List UInt32)
  | 0, s => .ok s
  | n + 1, s => do
    let s ← divWord inv pp s
    divWords inv pp n s

/-- bignum.c:860-866: words of 32 bits to limbs of 30 bits. -/
def unpackLoop : UInt32 → Nat → List UInt32 → BN
  | temp, _, [] => [temp]
  | temp, i, w :: ws =>
    (((w <<< (2 * i).toUInt32) &&& 0x3FFFFFFF) ||| temp) :: unpackLoop (w >>> (30 - 2 * i).toUInt32) (i + 1) ws

/-- bignum.c:599-868 `bn_inverse`: the new value of `x`.  The loop of 658-801 is given 514 rounds. -/
def inverse (x prime : BN) : C BN := do
  let x := mod (fastMod x prime) prime
  let pp := pack prime
  let (us, k) ← inverseLoop 514 ⟨pp ++ [1], 8⟩ ⟨pack x ++ [0], 8⟩ true 0
  require (bit0 (pp.headD 0))
  let inv ← wordInverse 5 (pp.headD 0 - 1) (pp.headD 0 - 2)
  let s ← divWords inv pp (k / 32) (us.a.drop 1).reverse
  let s ← if k % 32 = 0 then .ok s else divBits inv (k % 32) pp s
  .ok (unpackLoop 0 0 s)

end UB.BN
