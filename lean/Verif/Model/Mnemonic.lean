import Verif.Model.Wordlist
import Verif.Model.Hash

/-
Mnemonic phrases: bip39.c and the wrappers of Bitcoin.cpp:23-95.
-/

namespace UB

/-- Reading `b[i]`; out of bounds is `ub`. -/
def byteAt (b : Bytes) (i : Nat) : C UInt8 :=
  match b[i]? with
  | some x => .ok x
  | none => .ub

/-- bip39.c:85 the bit number `n` of `bits`, as 0 or 1. -/
def bitAt (bits : Bytes) (n : Nat) : C Nat := do
  let b ← byteAt bits (n / 8)
  return if b &&& (1 <<< UInt8.ofNat (7 - n % 8)) != 0 then 1 else 0

/-- bip39.c:82-86 `idx`. -/
def wordIndex (bits : Bytes) (i : Nat) : C Nat :=
  (List.range 11).foldlM (fun idx j => do return idx * 2 + (← bitAt bits (i * 11 + j))) 0

/-- bip39.c:87-90 one word is written at `p`; `wordlist[idx]` beyond the list is `ub`. -/
def putWord (bits : Bytes) (mlen : Nat) (st : Bytes × Nat) (i : Nat) : C (Bytes × Nat) := do
  let idx ← wordIndex bits i
  match wordlist[idx]? with
  | none => .ub
  | some w => do
    let buf ← store st.1 st.2 (w ++ [0])
    let p := st.2 + w.length
    let buf ← store buf p [if i < mlen - 1 then 0x20 else 0]
    return (buf, p + 1)

/-- bip39.c:63-95 `mnemonic_from_data`: the new contents of the static buffer `mnemo` of 240 bytes, or `none` for the null pointer.
`junk` is the uninitialised byte 32 of `bits`.  `len` is the length of `data`; the conversion of lengths of 2^31 and more to `int`
is not modelled. -/
def mnemonicFromData (mnemo : Bytes) (junk : UInt8) (data : Bytes) : C (Option Bytes) := do
  if data.length % 4 != 0 || data.length < 16 || data.length > 32 then return none
  else do
    let bits := sha256 data ++ [junk]
    let bits ← store bits data.length [← byteAt bits 0]
    let bits ← store bits 0 data
    let mlen := data.length * 3 / 4
    let (mnemo, _) ← (List.range mlen).foldlM (putWord bits mlen) (mnemo, 0)
    return some mnemo

/-- bip39.c:108-116 the number of words, one more than the number of spaces. -/
def countWords (s : Bytes) : UInt32 := s.foldl (fun n c => if c == 0x20 then n + 1 else n) 0 + 1

/-- bip39.c:142-157 the search in the word list. -/
def findWord (w : Bytes) : List Bytes → Option Nat
  | [] => none
  | v :: vs => if w = v then some 0 else (findWord w vs).map (· + 1)

/-- bip39.c:148-153 the eleven bits of an index. -/
def putIndex (k : Nat) (bits : Bytes) (bi : Nat) : C (Bytes × Nat) :=
  (List.range 11).foldlM (fun (st : Bytes × Nat) ki =>
    if k &&& (1 <<< (10 - ki)) ≠ 0 then do
      let b ← byteAt st.1 (st.2 / 8)
      let bits ← store st.1 (st.2 / 8) [b ||| (1 <<< UInt8.ofNat (7 - st.2 % 8))]
      return (bits, st.2 + 1)
    else return (st.1, st.2 + 1)) (bits, bi)

/-- bip39.c:128-158 the loop over the words of `s`, the rest of the text; `none`: returns 0.  The first argument bounds the number of
iterations, each of which consumes a character. -/
def entropyLoop : Nat → Bytes → Bytes → Nat → C (Option (Bytes × Nat))
  | _, [], bits, bi => return some (bits, bi)
  | 0, _ :: _, _, _ => .ub
  | f + 1, c :: s, bits, bi => do
    let w := (c :: s).takeWhile (· != 0x20)
    if w.length > 9 then return none
    else
      match findWord w wordlist with
      | none => return none
      | some k => do
        let (bits, bi) ← putIndex k bits bi
        entropyLoop f (((c :: s).dropWhile (· != 0x20)).drop 1) bits bi

/-- bip39.c:102-164 `mnemonic_to_entropy`: return value and new contents of `entropy`; `s` are the characters before the NUL (fewer than
2^32, as the index of the code has 32 bits). -/
def mnemonicToBits (s entropy : Bytes) : C (Nat × Bytes) := do
  let n := countWords s
  if n != 12 && n != 18 && n != 24 then return (0, entropy)
  else
    match ← entropyLoop s.length s (zeros 33) 0 with
    | none => return (0, entropy)
    | some (bits, bi) =>
      if bi != n.toNat * 11 then return (0, entropy)
      else do
        let entropy ← store entropy 0 bits
        return (n.toNat * 11, entropy)

/-- bip39.c:166-185 `mnemonic_check`; `junk` are the 33 uninitialised bytes of `bits`. -/
def mnemonicCheck (s junk : Bytes) : C Bool := do
  let (seedLen, bits) ← mnemonicToBits s junk
  if seedLen != 12 * 11 && seedLen != 18 * 11 && seedLen != 24 * 11 then return false
  else do
    let words := seedLen / 11
    let checksum ← byteAt bits (words * 4 / 3)
    let bits := sha256 (← load bits 0 (words * 4 / 3)) ++ bits.drop 32
    let b ← byteAt bits 0
    if words = 12 then return b &&& 0xF0 == checksum &&& 0xF0
    else if words = 18 then return b &&& 0xFC == checksum &&& 0xFC
    else return b == checksum

/-- Bitcoin.cpp:30-38 `generateMnemonic(numWords, entropy, len)`. -/
def generateMnemonic (mnemo : Bytes) (junk : UInt8) (numWords : UInt8) (data : Bytes) : C (Option Bytes) := do
  if numWords < 12 || numWords > 24 || numWords.toNat % 3 != 0 then return none
  else do
    let hash ← load (sha256 data) 0 (numWords.toNat * 4 / 3)
    mnemonicFromData mnemo junk hash

/-- Bitcoin.cpp:23-29 and bip39.c:48-59 `generateMnemonic(numWords)` with the 32 random bytes `rnd`. -/
def randomMnemonic (mnemo : Bytes) (junk : UInt8) (numWords : UInt8) (rnd : Bytes) : C (Option Bytes) := do
  if numWords < 12 || numWords > 24 || numWords.toNat % 3 != 0 then return none
  else do
    let strength := numWords.toNat * 32 / 3
    if strength % 32 != 0 || strength < 128 || strength > 256 then return none
    else do
      let data ← load rnd 0 (strength / 8)
      mnemonicFromData mnemo junk data

/-- Bitcoin.cpp:43-61 `mnemonicToEntropy`: return value and new contents of `output`. -/
def mnemonicToEntropy (s output : Bytes) : C (Nat × Bytes) := do
  let words := s.foldl (fun n c => if c == 0x20 then n + 1 else n) 0 + 1
  let len := words * 4 / 3
  if output.length < len then return (0, output)
  else do
    let (r, res) ← mnemonicToBits s (zeros 33)
    if r = 0 then return (0, output)
    else do
      let output ← store output 0 (← load res 0 len)
      return (len, output)

end UB
