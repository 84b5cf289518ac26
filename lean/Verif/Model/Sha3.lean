import Verif.Model.Hash
import Verif.Model.Mnemonic

/-
src/utility/trezor/sha3.c and hasher.c, without the functions for Keccak (USE_KECCAK is 0, options.h:91) and without
FULL_SHA3_FAMILY_SUPPORT.  Words are stored with the lowest byte first, as on all supported platforms (`le2me_64` is the identity).
-/

namespace UB
namespace Sha3

/-- sha3.h:47-57 `SHA3_CTX`; `message` as the 192 bytes of the array. -/
structure Ctx where
  hash : List UInt64
  message : Bytes
  rest : Nat
  blockSize : Nat

/-- The context after `memset` or `memzero`. -/
def Ctx.zero : Ctx := { hash := List.replicate 25 0, message := zeros 192, rest := 0, blockSize := 0 }

/-- sha3.c:46-54 `keccak_Init` (61-94 for the four sizes). -/
def init (bits : Nat) : C Ctx :=
  let rate := 1600 - bits * 2
  if rate ≤ 1600 ∧ rate % 64 = 0 then return { Ctx.zero with blockSize := rate / 8 } else .ub

/-- sha3.c:36-43. -/
def roundConstants : List UInt64 := [
  0x0000000000000001, 0x0000000000008082, 0x800000000000808A, 0x8000000080008000,
  0x000000000000808B, 0x0000000080000001, 0x8000000080008081, 0x8000000000008009,
  0x000000000000008A, 0x0000000000000088, 0x0000000080008009, 0x000000008000000A,
  0x000000008000808B, 0x800000000000008B, 0x8000000000008089, 0x8000000000008003,
  0x8000000000008002, 0x8000000000000080, 0x000000000000800A, 0x800000008000000A,
  0x8000000080008081, 0x8000000000008080, 0x0000000080000001, 0x8000000080008008]

/-- sha3.c:27 `ROTL64`. -/
def rotl64 (q : UInt64) (n : UInt64) : UInt64 := q <<< n ^^^ q >>> (64 - n)

/-- `A[i]`. -/
def at' (a : List UInt64) (i : Nat) : UInt64 := a.getD i 0

/-- sha3.c:97-118 `keccak_theta`. -/
def theta (a : List UInt64) : List UInt64 :=
  let c := (List.range 5).map fun x => at' a x ^^^ at' a (x + 5) ^^^ at' a (x + 10) ^^^ at' a (x + 15) ^^^ at' a (x + 20)
  let d := [rotl64 (at' c 1) 1 ^^^ at' c 4, rotl64 (at' c 2) 1 ^^^ at' c 0, rotl64 (at' c 3) 1 ^^^ at' c 1, rotl64 (at' c 4) 1 ^^^ at' c 2,
    rotl64 (at' c 0) 1 ^^^ at' c 3]
  (List.range 5).foldl (fun a x => [x, x + 5, x + 10, x + 15, x + 20].foldl (fun a i => a.set i (at' a i ^^^ at' d x)) a) a

/-- sha3.c:173-196: the rotations, `state[i] = ROTL64(state[i], n)` for `i` from 1. -/
def rho (a : List UInt64) : List UInt64 :=
  ([1, 62, 28, 27, 36, 44, 6, 55, 20, 3, 10, 43, 25, 39, 41, 45, 15, 21, 8, 18, 2, 61, 56, 14] : List UInt64).zipIdx.foldl
    (fun a p => a.set (p.2 + 1) (rotl64 (at' a (p.2 + 1)) p.1)) a

/-- sha3.c:121-150 `keccak_pi`: `A[i] = A[j]` for the pairs in the order of the code. -/
def pi (a : List UInt64) : List UInt64 :=
  let a1 := at' a 1
  let a := [(1, 6), (6, 9), (9, 22), (22, 14), (14, 20), (20, 2), (2, 12), (12, 13), (13, 19), (19, 23), (23, 15), (15, 4), (4, 24), (24, 21), (21, 8), (8, 16),
    (16, 5), (5, 3), (3, 18), (18, 17), (17, 11), (11, 7), (7, 10)].foldl (fun a (p : Nat × Nat) => a.set p.1 (at' a p.2)) a
  a.set 10 a1

/-- sha3.c:153-164 `keccak_chi`. -/
def chi (a : List UInt64) : List UInt64 :=
  [0, 5, 10, 15, 20].foldl (fun a i =>
    let a0 := at' a i
    let a1 := at' a (1 + i)
    let a := a.set i (at' a i ^^^ (~~~a1 &&& at' a (2 + i)))
    let a := a.set (1 + i) (at' a (1 + i) ^^^ (~~~at' a (2 + i) &&& at' a (3 + i)))
    let a := a.set (2 + i) (at' a (2 + i) ^^^ (~~~at' a (3 + i) &&& at' a (4 + i)))
    let a := a.set (3 + i) (at' a (3 + i) ^^^ (~~~at' a (4 + i) &&& a0))
    a.set (4 + i) (at' a (4 + i) ^^^ (~~~a0 &&& a1))) a

/-- sha3.c:166-205 `sha3_permutation`. -/
def permutation (s : List UInt64) : List UInt64 :=
  roundConstants.foldl (fun s c =>
    let s := chi (pi (rho (theta s)))
    s.set 0 (at' s 0 ^^^ c)) s

/-- A word of a block. -/
def word (block : Bytes) (i : Nat) : UInt64 := UInt64.ofNat (memNat ((block.drop (8 * i)).take 8))

/-- sha3.c:214-259 `sha3_process_block`: words 0 to 8 and the further ones for larger blocks. -/
def processBlock (hash : List UInt64) (block : Bytes) (blockSize : Nat) : List UInt64 :=
  let n := if blockSize > 72 then if blockSize > 104 then if blockSize > 136 then 18 else 17 else 13 else 9
  permutation ((List.range n).foldl (fun h i => h.set i (at' h i ^^^ word block i)) hash)

/-- `rest & SHA3_FINALIZED` (sha3.c:261). -/
def finalized (rest : Nat) : Bool := rest.testBit 31

/-- sha3.c:288-303: the loop over whole blocks of the message, with the number of bytes as a bound for the number of rounds.  A block that
is not aligned is copied to `message` first; all blocks of a call are aligned alike. -/
def blocks (aligned : Bool) (blockSize : Nat) : Nat → List UInt64 → Bytes → Bytes → C (List UInt64 × Bytes × Bytes)
  | 0, hash, message, msg => return (hash, message, msg)
  | k + 1, hash, message, msg =>
    if msg.length < blockSize then return (hash, message, msg)
    else do
      let block ← load msg 0 blockSize
      let message ← if aligned then pure message else store message 0 block
      blocks aligned blockSize k (processBlock hash (if aligned then msg else message) blockSize) message (msg.drop blockSize)

/-- sha3.c:270-307 `sha3_Update`; `aligned` is the alignment of the whole blocks of `msg`. -/
def update (aligned : Bool) (c : Ctx) (msg : Bytes) : C Ctx :=
  let idx := c.rest
  let size := msg.length
  if finalized c.rest then return c
  else if c.blockSize = 0 then .ub
  else do
    let rest := (c.rest + size) % c.blockSize
    if idx ≠ 0 then do
      let left := c.blockSize - idx
      let message ← store c.message idx (msg.take left)
      if size < left then return { c with message, rest }
      else do
        let (hash, message, msg) ← blocks aligned c.blockSize size (processBlock c.hash message c.blockSize) message (msg.drop left)
        let message ← store message 0 msg
        return { c with hash, message, rest }
    else do
      let (hash, message, msg) ← blocks aligned c.blockSize size c.hash c.message msg
      let message ← store message 0 msg
      return { c with hash, message, rest }

/-- sha3.c:321-324: the last block with its padding. -/
def lastBlock (message : Bytes) (rest blockSize : Nat) : C Bytes := do
  let message ← store message rest (zeros (blockSize - rest))
  let message ← store message rest [(← byteAt message rest) ||| 0x06]
  store message (blockSize - 1) [(← byteAt message (blockSize - 1)) ||| 0x80]

/-- sha3.c:318-329. -/
def finish (c : Ctx) : C Ctx :=
  if finalized c.rest then return c
  else if c.blockSize = 0 then .ub
  else do
    let message ← lastBlock c.message c.rest c.blockSize
    return { c with hash := processBlock c.hash message c.blockSize, message, rest := 0x80000000 }

/-- sha3.c:315-335 `sha3_Final`: the context and the digest (`result` is not NULL). -/
def final (c : Ctx) : C (Ctx × Bytes) := do
  let digestLength := 100 - c.blockSize / 2
  let c ← finish c
  if c.blockSize > digestLength then
    return (Ctx.zero, ((c.hash.map fun w => (List.range 8).map fun i => (w >>> UInt64.ofNat (8 * i)).toUInt8).flatten).take digestLength)
  else .ub

end Sha3

/-! ### hasher.c -/

/-- hasher.h:44-52 `Hasher` with `type`. -/
inductive Hasher where
  | sha2 (c : Sha2Ctx UInt32 UInt64)
  | sha2d (c : Sha2Ctx UInt32 UInt64)
  | sha2Ripemd (c : Sha2Ctx UInt32 UInt64)
  | sha3 (c : Sha3.Ctx)

/-- hasher.h:33-42 `HasherType`. -/
inductive HasherType where
  | sha2 | sha2d | sha2Ripemd | sha3

namespace Hasher

/-- hasher.c:26-42 `hasher_Init`. -/
def init : HasherType → C Hasher
  | .sha2 => return .sha2 sha256Code.init
  | .sha2d => return .sha2d sha256Code.init
  | .sha2Ripemd => return .sha2Ripemd sha256Code.init
  | .sha3 => do return .sha3 (← Sha3.init 256)

def type : Hasher → HasherType
  | .sha2 _ => .sha2
  | .sha2d _ => .sha2d
  | .sha2Ripemd _ => .sha2Ripemd
  | .sha3 _ => .sha3

/-- hasher.c:44-46 `hasher_Reset`. -/
def reset (h : Hasher) : C Hasher := init h.type

/-- hasher.c:48-62 `hasher_Update`. -/
def update (aligned : Bool) (h : Hasher) (data : Bytes) : C Hasher :=
  match h with
  | .sha2 c => return .sha2 (sha256Code.update c data)
  | .sha2d c => return .sha2d (sha256Code.update c data)
  | .sha2Ripemd c => return .sha2Ripemd (sha256Code.update c data)
  | .sha3 c => do return .sha3 (← Sha3.update aligned c data)

/-- hasher.c:64-86 `hasher_Final`: the 32 bytes of `hash`; `ripemd160` overwrites the first 20 of them. -/
def final (h : Hasher) : C Bytes :=
  match h with
  | .sha2 c => return (sha256Code.final c).2
  | .sha2d c => return (sha256Code.final (sha256Code.update sha256Code.init (sha256Code.final c).2)).2
  | .sha2Ripemd c => return rmd160 (sha256Code.final c).2 ++ (sha256Code.final c).2.drop 20
  | .sha3 c => do return (← Sha3.final c).2

/-- hasher.c:88-94 `hasher_Raw`. -/
def raw (type : HasherType) (aligned : Bool) (data : Bytes) : C Bytes := do
  final (← update aligned (← init type) data)

end Hasher
end UB
