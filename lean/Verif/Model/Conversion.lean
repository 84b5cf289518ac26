import Verif.Model.Base

/-
Model of /repo/src/Conversion.cpp.

Conventions.  `array`/`encoded` with its size is a `List UInt8`; an output buffer is its old
contents, and the function returns its new contents.  NULL arguments (which make every function
return 0 at once) are not modelled.  `size_t` is `Nat` (no 64-bit overflow of sizes).
`calloc`/`malloc` are assumed to succeed (including `calloc(0)`).
-/

namespace UB

/-! ### Hex -/

/-- Conversion.cpp:26-29 and 31-34 (and BaseClasses.cpp:102-110): one hex digit of a nibble. -/
def hexDigit (v : UInt8) : UInt8 :=
  let c := v + 48
  if c > 57 then c + (97 - 57 - 1) else c

/-- Conversion.cpp:25-35: the loop body for each byte. -/
def hexChars : Bytes → Bytes
  | [] => []
  | b :: bs => hexDigit (b >>> 4) :: hexDigit (b &&& 0x0F) :: hexChars bs

/-- Conversion.cpp:17-37 `toHex`. Result: return value and new contents of `output`. -/
def toHex (array output : Bytes) : Nat × Bytes :=
  if output.length < 2 * array.length then (0, output)
  else (2 * array.length, hexChars array ++ zeros (output.length - 2 * array.length))

/-- Conversion.cpp:81-92 `hexToVal`. (`char` read as an unsigned byte: characters ≥ 0x80 are in no
range either way.) -/
def hexToVal (c : UInt8) : UInt8 :=
  if 48 ≤ c ∧ c ≤ 57 then (c - 48) &&& 0x0F
  else if 65 ≤ c ∧ c ≤ 70 then (c - 65 + 10) &&& 0x0F
  else if 97 ≤ c ∧ c ≤ 102 then (c - 97 + 10) &&& 0x0F
  else 0xFF

/-- Conversion.cpp:98-107: skip characters that are not hex digits. -/
def skipNonHex : Bytes → Bytes
  | [] => []
  | c :: cs => if hexToVal c > 0x0F then skipNonHex cs else c :: cs

/-- Conversion.cpp:108-116: the decoding loop from index `i`; the store `array[i] = ...` is not
guarded by the code, so an index past the buffer is `ub`. -/
def fromHexLoop : Bytes → Nat → Bytes → C (Nat × Bytes)
  | c1 :: c2 :: cs, i, arr =>
    let v1 := hexToVal c1
    let v2 := hexToVal c2
    if v1 > 0x0F || v2 > 0x0F then .ok (i, arr)
    else if i < arr.length then fromHexLoop cs (i + 1) (arr.set i ((v1 <<< 4) ||| v2))
    else .ub
  | _, i, arr => .ok (i, arr)

/-- Conversion.cpp:94-117 `fromHex`. -/
def fromHex (hex array : Bytes) : C (Nat × Bytes) :=
  fromHexLoop (skipNonHex hex) 0 (zeros array.length)

/-! ### Binary strings -/

/-- Conversion.cpp:170-176: eight characters of one byte, most significant first. -/
def binChars8 (b : UInt8) : Bytes :=
  [7, 6, 5, 4, 3, 2, 1, 0].map fun j => if (b >>> j) &&& 1 == 1 then (49 : UInt8) else 48

/-- Conversion.cpp:163-179 `toBin`. -/
def toBin (array output : Bytes) : Nat × Bytes :=
  if output.length < array.length * 8 then (0, output)
  else (8 * array.length,
    array.flatMap binChars8 ++ zeros (output.length - 8 * array.length))

/-- Conversion.cpp:145-159: the loop over the reversed string. `n` is an 8-bit variable in the code,
so `i/8` is truncated to 8 bits.  The result is `none` on a wrong character (the buffer keeps what
was written so far, returned in the pair of the caller). `len-n-1` never underflows in the code
because `n ≤ i/8 < len`. -/
def fromBinLoop (len : Nat) : Bytes → Nat → Bytes → Bool × Bytes
  | [], _, arr => (true, arr)
  | c :: cs, i, arr =>
    let exp := i % 8
    let n := (UInt8.ofNat (i / 8)).toNat
    if c == 49 then
      let k := len - n - 1
      fromBinLoop len cs (i + 1) (arr.set k ((arr.getD k 0) ||| UInt8.ofNat (1 <<< exp)))
    else if c == 48 then fromBinLoop len cs (i + 1) arr
    else (false, arr)

/-- Conversion.cpp:133-161 `fromBin`. -/
def fromBin (bin array : Bytes) : Nat × Bytes :=
  if array.length * 8 < bin.length then (0, array)
  else
    let len := if bin.length % 8 != 0 then bin.length / 8 + 1 else bin.length / 8
    let r := fromBinLoop len bin.reverse 0 (zeros array.length)
    if r.1 then (len, r.2) else (0, r.2)

/-! ### Base 58 and base 43

The base-43 functions (Conversion.cpp:471-623) repeat the base-58 ones (234-426) with another
alphabet and other size estimates, so both are instances of one parametrised model. -/

/-- The parameters in which the base-58 and base-43 code differ. -/
structure Radix where
  /-- alphabet, Conversion.cpp:13-14 -/
  chars : Bytes
  /-- `size = n * encNum / encDen + 1`, Conversion.cpp:250/265 and 479/493 -/
  encNum : Nat
  encDen : Nat
  /-- `size = n * decNum / decDen + 1`, Conversion.cpp:364 and 561 -/
  decNum : Nat
  decDen : Nat

/-- Conversion.cpp:13. The characters "123456789ABCDEFGHJKLMNPQRSTUVWXYZabcdefghijkmnopqrstuvwxyz". -/
def base58Chars : Bytes := [
  49, 50, 51, 52, 53, 54, 55, 56, 57, 65, 66, 67, 68, 69, 70, 71, 72, 74, 75, 76,
  77, 78, 80, 81, 82, 83, 84, 85, 86, 87, 88, 89, 90, 97, 98, 99, 100, 101, 102, 103,
  104, 105, 106, 107, 109, 110, 111, 112, 113, 114, 115, 116, 117, 118, 119, 120, 121, 122]
/-- Conversion.cpp:14. The characters "0123456789ABCDEFGHIJKLMNOPQRSTUVWXYZ$*+-./:". -/
def base43Chars : Bytes := [
  48, 49, 50, 51, 52, 53, 54, 55, 56, 57, 65, 66, 67, 68, 69, 70, 71, 72, 73, 74,
  75, 76, 77, 78, 79, 80, 81, 82, 83, 84, 85, 86, 87, 88, 89, 90, 36, 42, 43, 45,
  46, 47, 58]

/-- Conversion.cpp:13, 250, 265, 364. -/
def base58 : Radix := ⟨base58Chars, 183, 134, 361, 493⟩
/-- Conversion.cpp:14, 479, 493, 561. -/
def base43 : Radix := ⟨base43Chars, 148, 100, 68, 100⟩

/-- Conversion.cpp:237-240, 258-261 (476-477, 486-489): number of leading zero bytes. -/
def countZeros : Bytes → Nat
  | [] => 0
  | b :: bs => if b == 0 then countZeros bs + 1 else 0

/-- Conversion.cpp:234-253 `toBase58Length` (471-481 `toBase43Length`). -/
def toBaseLength (R : Radix) (array : Bytes) : Nat :=
  (array.length - countZeros array) * R.encNum / R.encDen + 1 + countZeros array

/-- Conversion.cpp:284-288 (511-515): one long-division pass over the buffer with 16-bit temporaries.
Returns the new buffer and the remainder. -/
def divPass (r : UInt16) : UInt16 → Bytes → Bytes × UInt16
  | reminder, [] => ([], reminder)
  | reminder, b :: bs =>
    let temp : UInt16 := reminder * 256 + b.toUInt16
    let res := divPass r (temp % r) bs
    ((temp / r).toUInt8 :: res.1, res.2)

/-- Conversion.cpp:281-290 (508-517): `size` passes; the character of pass `j` goes to position
`size+zeroCount-j-1`, i.e. the list is produced last character first. -/
def encPasses (R : Radix) : Nat → Bytes → Bytes
  | 0, _ => []
  | j + 1, buffer =>
    let p := divPass (UInt16.ofNat R.chars.length) 0 buffer
    R.chars.getD p.2.toNat 0 :: encPasses R j p.1

/-- Conversion.cpp:301-308 (528-535): drop leading zero-digit characters. (The copy-down loop 309-314
and the final `memzero` are folded into list operations.) -/
def stripZeroChar (R : Radix) : Bytes → Bytes
  | [] => []
  | c :: cs => if c == R.chars.getD 0 0 then stripZeroChar R cs else c :: cs

/-- Conversion.cpp:255-318 `toBase58` (483-545 `toBase43`). -/
def toBase (R : Radix) (array output : Bytes) : Nat × Bytes :=
  let zeroCount := countZeros array
  let size := (array.length - zeroCount) * R.encNum / R.encDen + 1
  if output.length < size + zeroCount then (0, output)
  else
    let digits := (encPasses R size (array.drop zeroCount)).reverse
    let enc := List.replicate zeroCount (R.chars.getD 0 0) ++ stripZeroChar R digits
    (enc.length, enc ++ zeros (output.length - enc.length))

/-- `strchr(ALPHABET, c) - ALPHABET`; note that `strchr` finds the terminating NUL. -/
def strchrIdx (chars : Bytes) (c : UInt8) : Option Nat :=
  if c == 0 then some chars.length else chars.findIdx? (· == c)

/-- Conversion.cpp:362-366 `fromBase58Length` (559-563 `fromBase43Length`). -/
def fromBaseLength (R : Radix) (n : Nat) : Nat := n * R.decNum / R.decDen + 1

/-- Conversion.cpp:399-404 (596-601): `tmp = tmp*r + val` from the last byte to the first.
`tmp` is held reversed here (index `size-j-1` of the code is index `j`). The carry out of the first
byte is lost, as in the code. -/
def mulAddPass (r : UInt16) : UInt16 → Bytes → Bytes
  | _, [] => []
  | val, t :: ts =>
    let cur : UInt16 := t.toUInt16 * r + val
    (cur % 256).toUInt8 :: mulAddPass r (cur / 256) ts

/-- Conversion.cpp:395-409 (592-606): all characters; `none` is `return 0` at 407 (not reachable after
the truncation at 374-380). -/
def decPasses (R : Radix) : Bytes → Bytes → Option Bytes
  | [], tmp => some tmp
  | c :: cs, tmp =>
    match strchrIdx R.chars c with
    | some v => decPasses R cs (mulAddPass (UInt16.ofNat R.chars.length) (UInt16.ofNat v) tmp)
    | none => none

/-- Conversion.cpp:385-392 (582-589): leading zero-digit characters, counted in 8 bits. -/
def countZeroChar (R : Radix) : Bytes → UInt8
  | [] => 0
  | c :: cs => if c == R.chars.getD 0 0 then countZeroChar R cs + 1 else 0

/-- Conversion.cpp:411-418 (608-615): zero bytes from the given position, counted in 8 bits. -/
def countShift : Bytes → UInt8
  | [] => 0
  | t :: ts => if t == 0 then countShift ts + 1 else 0

/-- Conversion.cpp:374-380 (571-577): stop at the first character outside the alphabet. -/
def truncAlphabet (R : Radix) : Bytes → Bytes
  | [] => []
  | c :: cs => if (strchrIdx R.chars c).isSome then c :: truncAlphabet R cs else []

/-- Conversion.cpp:368-426 `fromBase58` (565-623 `fromBase43`). -/
def fromBase (R : Radix) (encoded output : Bytes) : Nat × Bytes :=
  let enc := truncAlphabet R encoded
  let size := fromBaseLength R enc.length
  let zeroCount := countZeroChar R enc
  match decPasses R enc (zeros size) with
  | none => (0, zeros output.length)
  | some tmpRev =>
    let tmp := tmpRev.reverse
    let shift := (countShift (tmp.drop zeroCount.toNat)).toNat
    if size - shift > output.length then (0, zeros output.length)
    else (size - shift, tmp.drop shift ++ zeros (output.length - (size - shift)))

def toBase58 := toBase base58
def fromBase58 := fromBase base58
def toBase43 := toBase base43
def fromBase43 := fromBase base43

/-- Conversion.cpp:332-346 `toBase58Check`; `H` is `doubleSha`. -/
def toBase58Check (H : Bytes → Bytes) (array output : Bytes) : Nat × Bytes :=
  toBase58 (array ++ (H array).take 4) output

/-- Conversion.cpp:428-450 `fromBase58Check`; `H` is `doubleSha`. -/
def fromBase58Check (H : Bytes → Bytes) (encoded output : Bytes) : Nat × Bytes :=
  let r := fromBase58 encoded (zeros (output.length + 4))
  let l := r.1
  let arr := r.2
  if l < 4 then (0, output)
  else if (arr.drop (l - 4)).take 4 != (H (arr.take (l - 4))).take 4 then (0, output)
  else (l - 4, arr.take (l - 4) ++ output.drop (l - 4))

/-! ### Integers -/

/-- Conversion.cpp:818-825 `littleEndianToInt`. -/
def littleEndianToInt (array : Bytes) : UInt64 :=
  array.reverse.foldl (fun num b => (num <<< 8) + b.toUInt64) 0

/-- Conversion.cpp:833-840 `bigEndianToInt`. -/
def bigEndianToInt (array : Bytes) : UInt64 :=
  array.foldl (fun num b => (num <<< 8) + b.toUInt64) 0

/-- Conversion.cpp:827-831 `intToLittleEndian` as the list of written bytes; for a size above 8 the
shift count reaches 64, which is undefined behaviour. -/
def intToLittleEndian (num : UInt64) (size : Nat) : C Bytes :=
  if size ≤ 8 then .ok ((List.range size).map fun i => (num >>> (UInt64.ofNat (8 * i)) &&& 0xFF).toUInt8)
  else .ub

/-- Conversion.cpp:842-846 `intToBigEndian`: same bytes, stored from the end. -/
def intToBigEndian (num : UInt64) (size : Nat) : C Bytes := do
  let l ← intToLittleEndian num size
  return l.reverse

/-- Conversion.cpp:850-861 `lenVarInt`. -/
def lenVarInt (num : UInt64) : Nat :=
  if num < 0xfd then 1
  else if num >>> 16 == 0 then 3
  else if num >>> 32 == 0 then 5
  else 9

/-- Conversion.cpp:862-872 `readVarInt`; an empty array is read out of bounds. -/
def readVarInt (array : Bytes) : C UInt64 :=
  match array with
  | [] => .ub
  | a0 :: rest =>
    if a0 < 0xfd then .ok a0.toUInt64
    else
      let len := 1 <<< (a0.toNat - 0xfc)
      if len + 1 > array.length then .ok 0
      else .ok (littleEndianToInt (rest.take len))

/-- Conversion.cpp:875-894 `writeVarInt`: return value and the new buffer. -/
def writeVarInt (num : UInt64) (array : Bytes) : C (Nat × Bytes) :=
  let len := lenVarInt num
  if array.length < len then .ok (0, array)
  else if len == 1 then do
    let a ← store array 0 [(num &&& 0xFF).toUInt8]
    return (len, a)
  else do
    let pre : UInt8 := if len == 3 then 0xfd else if len == 5 then 0xfe else 0xff
    let l ← intToLittleEndian num (len - 1)
    let a ← store array 0 (pre :: l)
    return (len, a)

/-! ### Base 64 -/

/-- Conversion.cpp:15. The characters "ABCDEFGHIJKLMNOPQRSTUVWXYZabcdefghijklmnopqrstuvwxyz0123456789+/". -/
def base64Chars : Bytes := [
  65, 66, 67, 68, 69, 70, 71, 72, 73, 74, 75, 76, 77, 78, 79, 80, 81, 82, 83, 84,
  85, 86, 87, 88, 89, 90, 97, 98, 99, 100, 101, 102, 103, 104, 105, 106, 107, 108, 109, 110,
  111, 112, 113, 114, 115, 116, 117, 118, 119, 120, 121, 122, 48, 49, 50, 51, 52, 53, 54, 55,
  56, 57, 43, 47]

/-- Flags of Conversion.h: `BASE64_NOPADDING` = 1, `BASE64_URLSAFE` = 2. -/
structure B64Flags where
  noPadding : Bool
  urlSafe : Bool
deriving DecidableEq, Repr

/-- Conversion.cpp:637-648 `toBase64Length`. -/
def toBase64Length (n : Nat) (f : B64Flags) : Nat :=
  (n / 3) * 4 + (if n % 3 != 0 then (if f.noPadding then n % 3 + 1 else 4) else 0)

/-- Conversion.cpp:658-660, 668-670, 679-681: the first `k` characters of a 24-bit group. -/
def b64Group (val : UInt32) (k : Nat) : Bytes :=
  (List.range k).map fun i =>
    base64Chars.getD ((val >>> (UInt32.ofNat (6 * (3 - i)))) &&& 0x3F).toNat 0

/-- Conversion.cpp:656-683: the groups written by the `while` loop and by the last block, as the
concatenation of what is written at 4*cur.  Reading three bytes of an empty rest (only possible when
the whole input is empty, line 678) is out of bounds. -/
def b64Groups (f : B64Flags) : Bytes → C Bytes
  | a :: b :: c :: d :: rest => do
    -- 3*cur + 3 < arraySize
    let tl ← b64Groups f (d :: rest)
    return b64Group (bigEndianToInt [a, b, c]).toUInt32 4 ++ tl
  | [a, b, c] => .ok (b64Group (bigEndianToInt [a, b, c]).toUInt32 4)
  | [a, b] => .ok (b64Group ((bigEndianToInt [a, b]).toUInt32 <<< 8) 3 ++ (if f.noPadding then [] else [61]))
  | [a] => .ok (b64Group ((bigEndianToInt [a]).toUInt32 <<< 16) 2 ++ (if f.noPadding then [] else [61, 61]))
  | [] => .ub

/-- Conversion.cpp:685-694: URL-safe replacement of one character. -/
def urlSafeChar (c : UInt8) : UInt8 :=
  let c := if c == 43 then 45 else c
  if c == 47 then 95 else c

/-- Conversion.cpp:649-696 `toBase64`. For an empty input the code falls into the `else` branch at
line 677, reads `array[0..2]` and writes four characters: modelled as `ub`. -/
def toBase64 (array output : Bytes) (f : B64Flags) : C (Nat × Bytes) :=
  if output.length < toBase64Length array.length f then .ok (0, zeros output.length)
  else do
    let g ← b64Groups f array
    let g := if f.urlSafe then g.map urlSafeChar else g
    return (g.length, g ++ zeros (output.length - g.length))

/-- Conversion.cpp:709-726 `fromBase64Length`; the padded flavours look at the last two characters
even when there are none. -/
def fromBase64Length (enc : Bytes) (f : B64Flags) : C Nat :=
  let n := enc.length
  if n % 4 != 0 && !f.noPadding then .ok 0
  else
    let v := (n / 4) * 3
    if f.noPadding then .ok (if n % 4 != 0 then v + (n % 4 - 1) else v)
    else if n < 2 then .ub
    else
      let v := if enc.getD (n - 1) 0 == 61 then v - 1 else v
      let v := if enc.getD (n - 2) 0 == 61 then v - 1 else v
      .ok v

/-- Result of decoding one group of four characters (Conversion.cpp:739-776). -/
inductive B64Step where
  | full (val : UInt32)
  | endAt (i : Nat) (val : UInt32)
  | bad
  | oob
deriving DecidableEq, Repr

/-- Conversion.cpp:740-776: characters `i..3` of a group. `rest` is what remains of the buffer from
the current character on. One past the end of the text is its NUL terminator when `nul` is true
(C strings); any other read past the end is out of bounds. -/
def b64Step (f : B64Flags) (nul : Bool) : Nat → Nat → UInt32 → Bytes → B64Step
  | 0, _, val, _ => .full val
  | fuel + 1, i, val, rest =>
    let c? : Option (UInt8 × Bytes) := match rest with
      | c :: cs => some (c, cs)
      | [] => if nul then some (0, []) else none
    match c? with
    | none => .oob
    | some (c0, cs) =>
      let c := if c0 == 45 && f.urlSafe then 43 else c0
      let c := if c == 95 && f.urlSafe then 47 else c
      match strchrIdx base64Chars c with
      | some v =>
        if f.noPadding && c == 0 then
          if i == 3 || i == 2 then .endAt i val else .bad
        else b64Step f (nul && !rest.isEmpty) fuel (i + 1) ((val <<< 6) + UInt32.ofNat (v % 64)) cs
      | none =>
        if c0 == 61 || (c == 0 && f.noPadding) then
          if i == 3 || i == 2 then .endAt i val else .bad
        else .bad

/-- Conversion.cpp:734-783: the decoding loop. `rest` is the text from position `4*cur`; `done` is what
has been written so far (`3*cur` bytes). `none` is `memzero; return 0`. -/
def fromBase64Loop (f : B64Flags) (nul : Bool) (outSize : Nat) : Nat → Bytes → Bytes → C (Option Bytes)
  | 0, _, done => .ok (some done)
  | fuel + 1, rest, done =>
    if rest.isEmpty then .ok (some done)
    else if rest.length ≤ 3 && !f.noPadding then .ok none
    else match b64Step f nul 4 0 0 rest with
      | .oob => .ub
      | .bad => .ok none
      | .endAt i val =>
        if i == 3 then
          let val := val >>> 2
          if outSize < done.length + 2 then .ok none
          else .ok (some (done ++ [(val >>> 8).toUInt8, val.toUInt8]))
        else
          let val := val >>> 4
          if outSize < done.length + 1 then .ok none
          else .ok (some (done ++ [val.toUInt8]))
      | .full val =>
        if outSize < done.length + 3 then .ok none
        else fromBase64Loop f nul outSize fuel (rest.drop 4)
          (done ++ [(val >>> 16).toUInt8, (val >>> 8).toUInt8, val.toUInt8])

/-- Conversion.cpp:727-785 `fromBase64`. `nul` says that the text is followed by a readable NUL (as the
`std::string` overload 787-789 guarantees). -/
def fromBase64 (encoded output : Bytes) (f : B64Flags) (nul : Bool) : C (Nat × Bytes) := do
  let need ← fromBase64Length encoded f
  if output.length < need then .ok (0, zeros output.length)
  else
    let r ← fromBase64Loop f nul output.length encoded.length encoded []
    match r with
    | none => .ok (0, zeros output.length)
    | some d => .ok (d.length, d ++ zeros (output.length - d.length))

end UB
