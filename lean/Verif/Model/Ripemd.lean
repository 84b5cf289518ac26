import Verif.Model.Sha2

/-
Model of /repo/src/utility/trezor/ripemd160.c.  `memcpy` into the block buffer is `put`.
-/

namespace UB.Rmd160

/-- RIPEMD160_CTX.  /repo/src/utility/trezor/ripemd160.h -/
structure Ctx where
  total0 : UInt32
  total1 : UInt32
  state : List UInt32
  buffer : Bytes
deriving DecidableEq, Repr

/-- `GET_UINT32_LE(n,b,i)`.  /repo/src/utility/trezor/ripemd160.c:36-44 -/
def getLE (b : Bytes) (i : Nat) : UInt32 :=
  (b.getD i 0).toUInt32 ||| ((b.getD (i + 1) 0).toUInt32 <<< 8)
    ||| ((b.getD (i + 2) 0).toUInt32 <<< 16) ||| ((b.getD (i + 3) 0).toUInt32 <<< 24)

/-- `PUT_UINT32_LE(n,b,i)`.  /repo/src/utility/trezor/ripemd160.c:46-54 -/
def putLE (n : UInt32) : Bytes :=
  [(n &&& 0xFF).toUInt8, ((n >>> 8) &&& 0xFF).toUInt8, ((n >>> 16) &&& 0xFF).toUInt8,
    ((n >>> 24) &&& 0xFF).toUInt8]

/-- `S(x,n)`.  /repo/src/utility/trezor/ripemd160.c:108 -/
def S (x : UInt32) (n : Nat) : UInt32 :=
  (x <<< UInt32.ofNat n) ||| (x >>> UInt32.ofNat (32 - n))

/-- `F1`..`F5`.  /repo/src/utility/trezor/ripemd160.c:102-106 -/
def F1 (x y z : UInt32) : UInt32 := x ^^^ y ^^^ z
def F2 (x y z : UInt32) : UInt32 := (x &&& y) ||| (~~~x &&& z)
def F3 (x y z : UInt32) : UInt32 := (x ||| ~~~y) ^^^ z
def F4 (x y z : UInt32) : UInt32 := (x &&& z) ||| (y &&& ~~~z)
def F5 (x y z : UInt32) : UInt32 := x ^^^ (y ||| ~~~z)

/-- `P(a,b,c,d,e,r,s,f,k)` where `ia..ie` are the registers named in the invocation.
/repo/src/utility/trezor/ripemd160.c:110-113 -/
def P (regs : List UInt32) (ia ib ic id ie : Nat) (x : UInt32) (s : Nat)
    (f : UInt32 → UInt32 → UInt32 → UInt32) (k : UInt32) : List UInt32 :=
  let a := regs.getD ia 0 + (f (regs.getD ib 0) (regs.getD ic 0) (regs.getD id 0) + x + k)
  let a := S a s + regs.getD ie 0
  let c := S (regs.getD ic 0) 10
  (regs.set ia a).set ic c

/-- `(r, s, rp, sp)` of the eighty `P2` lines, in order.
/repo/src/utility/trezor/ripemd160.c:123-138, 148-163, 173-188, 198-213, 223-238 -/
def lines : List (Nat × Nat × Nat × Nat) :=
  [(0, 11, 5, 8), (1, 14, 14, 9), (2, 15, 7, 9), (3, 12, 0, 11), (4, 5, 9, 13), (5, 8, 2, 15), (6, 7, 11, 15), (7, 9, 4, 5),
   (8, 11, 13, 7), (9, 13, 6, 7), (10, 14, 15, 8), (11, 15, 8, 11), (12, 6, 1, 14), (13, 7, 10, 14), (14, 9, 3, 12), (15, 8, 12, 6),
   (7, 7, 6, 9), (4, 6, 11, 13), (13, 8, 3, 15), (1, 13, 7, 7), (10, 11, 0, 12), (6, 9, 13, 8), (15, 7, 5, 9), (3, 15, 10, 11),
   (12, 7, 14, 7), (0, 12, 15, 7), (9, 15, 8, 12), (5, 9, 12, 7), (2, 11, 4, 6), (14, 7, 9, 15), (11, 13, 1, 13), (8, 12, 2, 11),
   (3, 11, 15, 9), (10, 13, 5, 7), (14, 6, 1, 15), (4, 7, 3, 11), (9, 14, 7, 8), (15, 9, 14, 6), (8, 13, 6, 6), (1, 15, 9, 14),
   (2, 14, 11, 12), (7, 8, 8, 13), (0, 13, 12, 5), (6, 6, 2, 14), (13, 5, 10, 13), (11, 12, 0, 13), (5, 7, 4, 7), (12, 5, 13, 5),
   (1, 11, 8, 15), (9, 12, 6, 5), (11, 14, 4, 8), (10, 15, 1, 11), (0, 14, 3, 14), (8, 15, 11, 14), (12, 9, 15, 6), (4, 8, 0, 14),
   (13, 9, 5, 6), (3, 14, 12, 9), (7, 5, 2, 12), (15, 6, 13, 9), (14, 8, 9, 12), (5, 6, 7, 5), (6, 5, 10, 15), (2, 12, 14, 8),
   (4, 9, 12, 8), (0, 15, 15, 5), (5, 5, 10, 12), (9, 11, 4, 9), (7, 6, 1, 12), (12, 8, 5, 5), (2, 13, 8, 14), (10, 12, 7, 6),
   (14, 5, 6, 8), (1, 12, 2, 13), (3, 13, 13, 6), (8, 14, 14, 5), (11, 11, 0, 15), (6, 8, 3, 13), (15, 5, 9, 11), (13, 6, 11, 11)]

/-- `F`, `K`, `Fp`, `Kp` in force at the five groups of lines.
/repo/src/utility/trezor/ripemd160.c:119-122, 144-147, 169-172, 194-197, 219-222 -/
def group (g : Nat) : (UInt32 → UInt32 → UInt32 → UInt32) × UInt32 ×
    (UInt32 → UInt32 → UInt32 → UInt32) × UInt32 :=
  match g with
  | 0 => (F1, 0x00000000, F5, 0x50A28BE6)
  | 1 => (F2, 0x5A827999, F4, 0x5C4DD124)
  | 2 => (F3, 0x6ED9EBA1, F3, 0x6D703EF3)
  | 3 => (F4, 0x8F1BBCDC, F2, 0x7A6D76E9)
  | _ => (F5, 0xA953FD4E, F1, 0x00000000)

/-- Register named at argument `p` of line `i`: the lines read `A,B,C,D,E`, then
`E,A,B,C,D`, then `D,E,A,B,C` and so on. -/
def reg (i p : Nat) : Nat := (p + 5 - i % 5) % 5

/-- Line `i`: `P2(...)`, i.e. `P` on the registers and on the primed registers. -/
def line (X : List UInt32) (s : List UInt32 × List UInt32) (i : Nat) : List UInt32 × List UInt32 :=
  let l := lines.getD i (0, 0, 0, 0)
  let g := group (i / 16)
  (P s.1 (reg i 0) (reg i 1) (reg i 2) (reg i 3) (reg i 4) (X.getD l.1 0) l.2.1 g.1 g.2.1,
   P s.2 (reg i 0) (reg i 1) (reg i 2) (reg i 3) (reg i 4) (X.getD l.2.2.1 0) l.2.2.2 g.2.2.1 g.2.2.2)

/-- `ripemd160_process`: the new state.  /repo/src/utility/trezor/ripemd160.c:75-250 -/
def process (st : List UInt32) (data : Bytes) : List UInt32 :=
  let X := (List.range 16).map fun i => getLE data (4 * i)
  let s := (List.range 80).foldl (line X) (st, st)
  let r := fun i => s.1.getD i 0
  let p := fun i => s.2.getD i 0
  let h := fun i => st.getD i 0
  [h 1 + r 2 + p 3, h 2 + r 3 + p 4, h 3 + r 4 + p 0, h 4 + r 0 + p 1, h 0 + r 1 + p 2]

/-- `ripemd160_Init`.  /repo/src/utility/trezor/ripemd160.c:59-69 -/
def init : Ctx :=
  { total0 := 0, total1 := 0
    state := [0x67452301, 0xEFCDAB89, 0x98BADCFE, 0x10325476, 0xC3D2E1F0]
    buffer := zeros 64 }

/-- The `while` loop: state and what is left of the input.
/repo/src/utility/trezor/ripemd160.c:282-287 -/
def blocks : Nat → List UInt32 → Bytes → List UInt32 × Bytes
  | fuel + 1, st, input =>
    if input.length ≥ 64 then blocks fuel (process st (input.take 64)) (input.drop 64)
    else (st, input)
  | 0, st, input => (st, input)

/-- `ripemd160_Update` on `input` with `ilen = input.length`, which the callers pass as a
`uint32_t`.  /repo/src/utility/trezor/ripemd160.c:256-293 -/
def update32 (c : Ctx) (input : Bytes) : Ctx :=
  if input.length = 0 then c
  else
    let left := (c.total0 &&& 0x3F).toNat
    let fill := 64 - left
    let total0 := (c.total0 + UInt32.ofNat input.length) &&& 0xFFFFFFFF
    let total1 := if total0 < UInt32.ofNat input.length then c.total1 + 1 else c.total1
    let (st, buffer, input, left) :=
      if left ≠ 0 ∧ input.length ≥ fill then
        let buffer := put c.buffer left (input.take fill)
        (process c.state buffer, buffer, input.drop fill, 0)
      else (c.state, c.buffer, input, left)
    let (st, input) := blocks input.length st input
    let buffer := if input.length > 0 then put buffer left input else buffer
    { total0, total1, state := st, buffer }

/-- `ripemd160_Update` called with a `size_t` length: the parameter is `uint32_t`, so only
`len mod 2^32` bytes are looked at. -/
def update (c : Ctx) (input : Bytes) : Ctx := update32 c (Sha2Code.cut32 input)

/-- /repo/src/utility/trezor/ripemd160.c:295-301 -/
def padding : Bytes := 0x80 :: zeros 63

/-- `ripemd160_Final`: the digest (the context is wiped).
/repo/src/utility/trezor/ripemd160.c:306-332 -/
def final (c : Ctx) : Bytes :=
  let high := (c.total0 >>> 29) ||| (c.total1 <<< 3)
  let low := c.total0 <<< 3
  let msglen := putLE low ++ putLE high
  let last := (c.total0 &&& 0x3F).toNat
  let padn := if last < 56 then 56 - last else 120 - last
  let c := update32 c (padding.take padn)
  let c := update32 c msglen
  putLE (c.state.getD 0 0) ++ putLE (c.state.getD 1 0) ++ putLE (c.state.getD 2 0)
    ++ putLE (c.state.getD 3 0) ++ putLE (c.state.getD 4 0)

end UB.Rmd160
