import Verif.Model.Mnemonic

/-
The random numbers of the library: utility/trezor/rand.c, and the phrase made of them (bip39.c:48-59, Bitcoin.cpp:23-29).

The environment is the sequence `draws : Nat → UInt32` of the values that successive calls of `random32` return; `k` is the number of calls made
so far.  `random32` itself is defined per platform; the definitions at the end are the versions of rand.c that compute something.
-/

namespace UB

/-- rand.c:142-147, the loop of `random_buffer`: at byte `i`, with `r` the word in use, `k` calls made and `n` bytes to go. -/
def randomBytes (draws : Nat → UInt32) : Nat → UInt32 → Nat → Nat → Bytes × Nat
  | _, _, k, 0 => ([], k)
  | i, r, k, n + 1 =>
    let r' := if i % 4 = 0 then draws k else r
    let k' := if i % 4 = 0 then k + 1 else k
    let rest := randomBytes draws (i + 1) r' k' n
    ((((r' >>> UInt32.ofNat (i % 4 * 8)) &&& 0xFF).toUInt8) :: rest.1, rest.2)

/-- rand.c:139-148 `random_buffer`: the bytes written, and the number of calls of `random32` made afterwards. -/
def randomBuffer (draws : Nat → UInt32) (k len : Nat) : Bytes × Nat := randomBytes draws 0 0 k len

/-- Bitcoin.cpp:23-29 and bip39.c:48-59 `generateMnemonic(numWords)`: the buffer of the phrase, and the calls of `random32` made afterwards.
The refusals come first, so that nothing is drawn then. -/
def generateRandom (draws : Nat → UInt32) (k : Nat) (mnemo : Bytes) (junk : UInt8) (numWords : UInt8) : C (Option Bytes × Nat) := do
  if numWords < 12 || numWords > 24 || numWords.toNat % 3 != 0 then return (none, k)
  else
    let rnd := randomBuffer draws k 32
    let text ← randomMnemonic mnemo junk numWords rnd.1
    return (text, rnd.2)

/-- rand.c:153, the loop of `random_uniform`: `none` when `fuel` draws have all been rejected (the loop has no bound of its own). -/
def uniformLoop (draws : Nat → UInt32) (max : UInt32) : Nat → Nat → Option (UInt32 × Nat)
  | 0, _ => none
  | fuel + 1, k => if draws k ≥ max then uniformLoop draws max fuel (k + 1) else some (draws k, k + 1)

/-- rand.c:150-155 `random_uniform`: undefined for `n = 0` (remainder by zero). -/
def randomUniform (draws : Nat → UInt32) (fuel k : Nat) (n : UInt32) : C (Option (UInt32 × Nat)) :=
  if n = 0 then .ub
  else
    let max := 0xFFFFFFFF - (0xFFFFFFFF % n)
    match uniformLoop draws max fuel k with
    | none => .ok none
    | some (x, k) => if max / n = 0 then .ub else .ok (some (x / (max / n), k))

/-- rand.c:159-164, the loop of `random_permute`, from index `i` down to 1. -/
def permuteLoop (draws : Nat → UInt32) (fuel : Nat) : Nat → Nat → Bytes → C (Option (Bytes × Nat))
  | 0, k, str => .ok (some (str, k))
  | i + 1, k, str => do
    match ← randomUniform draws fuel k (UInt32.ofNat (i + 2)) with
    | none => return none
    | some (j, k) => do
      let t ← byteAt str j.toNat
      let u ← byteAt str (i + 1)
      let str ← store str j.toNat [u]
      let str ← store str (i + 1) [t]
      permuteLoop draws fuel i k str

/-- rand.c:157-165 `random_permute` on the characters `str` (`len` their number; fewer than 2^31, as `i` is an `int`). -/
def randomPermute (draws : Nat → UInt32) (fuel k : Nat) (str : Bytes) : C (Option (Bytes × Nat)) :=
  permuteLoop draws fuel (str.length - 1) k str

/-! ### `random32` -/

/-- rand.c:41-49, the ESP8266: four reads `v1`, …, `v4` of the hardware register. -/
def random32Esp8266 (v1 v2 v3 v4 : UInt32) : UInt32 :=
  [v1, v2, v3, v4].foldl (fun rngint v => (rngint <<< 8) ||| v) 0

/-- rand.c:59-81, the STM32 boards: `none` when the generator is not ready within 10 ms. -/
def random32Stm32 (ready : Option UInt32) : UInt32 :=
  match ready with
  | none => 0
  | some v => v

/-- rand.c:95-97, PC: the `int` that `rand()` returns, converted. -/
def random32Pc (r : Nat) : UInt32 := UInt32.ofNat r

/-- rand.c:121-122: the static variables of the fallback generator. -/
structure Prng where
  pad : UInt32 := 0xeda4baba
  n : UInt32 := 69
  d : UInt32 := 233
  dat : UInt8 := 0

/-- rand.c:120-131: one call of the fallback generator. -/
def Prng.next (g : Prng) : UInt32 × Prng :=
  let pad := g.pad + (g.dat.toUInt32 + g.d * g.n)
  let pad := (pad <<< 3) + (pad >>> 29)
  let n := pad ||| 2
  let d := g.d ^^^ ((pad <<< 31) + (pad >>> 1))
  let dat := g.dat ^^^ (pad.toUInt8 ^^^ (d >>> 8).toUInt8 ^^^ 1)
  (pad ^^^ (d <<< 5) ^^^ (pad >>> 18) ^^^ (dat.toUInt32 <<< 1), { pad := pad, n := n, d := d, dat := dat })

/-- The state of the fallback generator after `k` calls since the start of the program. -/
def Prng.after : Nat → Prng
  | 0 => {}
  | k + 1 => (Prng.after k).next.2

/-- The values of the fallback generator since the start of the program. -/
def prngDraws (k : Nat) : UInt32 := (Prng.after k).next.1

end UB
