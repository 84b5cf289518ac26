import Verif.Model.Base

/-
Model of src/utility/segwit_addr.c.
C strings are lists of characters without the terminating NUL; texts passed to these functions are
assumed to contain no NUL, as a C string does.  `char` values are compared as bytes: the code
rejects every byte above 126 whether `char` is signed or not.
-/

namespace UB

/-- segwit_addr.c:27-35.  The mask `-((b >> i) & 1)` is all ones or zero. -/
def bech32PolymodStep (pre : UInt32) : UInt32 :=
  let b : UInt8 := (pre >>> 25).toUInt8
  ((pre &&& 0x1FFFFFF) <<< 5) ^^^
    (((0 : UInt32) - ((b >>> 0) &&& 1).toUInt32) &&& (0x3b6a57b2 : UInt32)) ^^^
    (((0 : UInt32) - ((b >>> 1) &&& 1).toUInt32) &&& (0x26508e6d : UInt32)) ^^^
    (((0 : UInt32) - ((b >>> 2) &&& 1).toUInt32) &&& (0x1ea119fa : UInt32)) ^^^
    (((0 : UInt32) - ((b >>> 3) &&& 1).toUInt32) &&& (0x3d4233dd : UInt32)) ^^^
    (((0 : UInt32) - ((b >>> 4) &&& 1).toUInt32) &&& (0x2a1462b3 : UInt32))

/-- segwit_addr.c:37 "qpzry9x8gf2tvdw0s3jn54khce6mua7l". -/
def bech32Charset : Bytes :=
  [113, 112, 122, 114, 121, 57, 120, 56, 103, 102, 50, 116, 118, 100, 119, 48,
   115, 51, 106, 110, 53, 52, 107, 104, 99, 101, 54, 109, 117, 97, 55, 108]

/-- segwit_addr.c:39-48; `-1` is `none`. -/
def bech32CharsetRev : List Int :=
  [-1, -1, -1, -1, -1, -1, -1, -1, -1, -1, -1, -1, -1, -1, -1, -1,
   -1, -1, -1, -1, -1, -1, -1, -1, -1, -1, -1, -1, -1, -1, -1, -1,
   -1, -1, -1, -1, -1, -1, -1, -1, -1, -1, -1, -1, -1, -1, -1, -1,
   15, -1, 10, 17, 21, 20, 26, 30,  7,  5, -1, -1, -1, -1, -1, -1,
   -1, 29, -1, 24, 13, 25,  9,  8, 23, -1, 18, 22, 31, 27, 19, -1,
    1,  0,  3, 16, 11, 28, 12, 14,  6,  4,  2, -1, -1, -1, -1, -1,
   -1, 29, -1, 24, 13, 25,  9,  8, 23, -1, 18, 22, 31, 27, 19, -1,
    1,  0,  3, 16, 11, 28, 12, 14,  6,  4,  2, -1, -1, -1, -1, -1]

/-- segwit_addr.h:31. -/
def maxBech32Size : Nat := 1000

def isUpper (c : UInt8) : Bool := 0x41 ≤ c && c ≤ 0x5a
def isLower (c : UInt8) : Bool := 0x61 ≤ c && c ≤ 0x7a

/-- segwit_addr.c:53-62: check the prefix and feed the high bits; `none` is `return 0`. -/
def bech32HrpHigh : Bytes → UInt32 → Option UInt32
  | [], chk => some chk
  | ch :: r, chk =>
    if ch < 33 ∨ ch > 126 then none
    else if isUpper ch then none
    else bech32HrpHigh r (bech32PolymodStep chk ^^^ (ch >>> 5).toUInt32)

/-- segwit_addr.c:65-68 / 120-122: the low bits of the prefix. -/
def bech32HrpLow (hrp : Bytes) (chk : UInt32) : UInt32 :=
  hrp.foldl (fun chk ch => bech32PolymodStep chk ^^^ (ch &&& 0x1f).toUInt32) chk

/-- segwit_addr.c:70-74: the data loop; characters written so far, and `none` for the checksum
state when a value is not a 5-bit value. -/
def bech32EncData : Bytes → UInt32 → Bytes → C (Option UInt32 × Bytes)
  | [], chk, out => .ok (some chk, out)
  | d :: r, chk, out =>
    if d >>> 5 ≠ 0 then .ok (none, out)
    else
      match bech32Charset[d.toNat]? with
      | none => .ub
      | some c => bech32EncData r (bech32PolymodStep chk ^^^ d.toUInt32) (out ++ [c])

/-- segwit_addr.c:50-84.  Returns the return value and the output buffer.  The characters written
before an early `return 0` are also stored, so that a write outside the buffer shows. -/
def bech32Encode (output hrp data : Bytes) : C (Bool × Bytes) := do
  match bech32HrpHigh hrp 1 with
  | none => return (false, output)
  | some chk =>
    if hrp.length + 7 + data.length > maxBech32Size then return (false, output)
    let chk := bech32HrpLow hrp (bech32PolymodStep chk)
    let (chk?, out) ← bech32EncData data chk (hrp ++ [0x31])
    match chk? with
    | none =>
      let output ← store output 0 out
      return (false, output)
    | some chk =>
      let chk := bech32PolymodStep (bech32PolymodStep (bech32PolymodStep (bech32PolymodStep
        (bech32PolymodStep (bech32PolymodStep chk))))) ^^^ 1
      let tail := (List.range 6).map fun i =>
        bech32Charset.getD ((chk >>> UInt32.ofNat ((5 - i) * 5)) &&& 0x1f).toNat 0
      let output ← store output 0 (out ++ tail ++ [0])
      return (true, output)

/-- State of the loops of `bech32_decode`. -/
structure Bech32State where
  chk : UInt32
  lower : Bool := false
  upper : Bool := false
  out : Bytes := []
deriving DecidableEq, Repr

/-- segwit_addr.c:104-117: one pass over the prefix; the flag says whether it ended without
`return 0`. -/
def bech32DecHrp : Bytes → Bech32State → Bool × Bech32State
  | [], s => (true, s)
  | ch :: r, s =>
    if ch < 33 ∨ ch > 126 then (false, s)
    else if isLower ch then
      bech32DecHrp r { s with lower := true, out := s.out ++ [ch], chk := bech32PolymodStep s.chk ^^^ (ch >>> 5).toUInt32 }
    else if isUpper ch then
      bech32DecHrp r { s with upper := true, out := s.out ++ [ch - 0x41 + 0x61],
                              chk := bech32PolymodStep s.chk ^^^ ((ch - 0x41 + 0x61) >>> 5).toUInt32 }
    else
      bech32DecHrp r { s with out := s.out ++ [ch], chk := bech32PolymodStep s.chk ^^^ (ch >>> 5).toUInt32 }

/-- segwit_addr.c:125. -/
def bech32Rev (c : UInt8) : C Int :=
  if c &&& 0x80 ≠ 0 then .ok (-1)
  else match bech32CharsetRev[c.toNat]? with
    | none => .ub
    | some v => .ok v

/-- segwit_addr.c:124-136 over the characters after the separator; the data value is stored while
more than six characters remain (`i + 6 < input_len`). -/
def bech32DecData : Bytes → Bech32State → C (Bool × Bech32State)
  | [], s => .ok (true, s)
  | c :: r, s => do
    let v ← bech32Rev c
    let lower := s.lower || isLower c
    let upper := s.upper || isUpper c
    if v = -1 then return (false, { s with lower, upper })
    else
      let v8 := UInt8.ofNat v.toNat
      bech32DecData r
        { lower, upper, chk := bech32PolymodStep s.chk ^^^ v8.toUInt32,
          out := if r.length + 1 > 6 then s.out ++ [v8] else s.out }

/-- What `bech32_decode` leaves behind. -/
structure Bech32Result where
  ret : Bool
  hrp : Bytes
  data : Bytes
  dataLen : Nat
deriving DecidableEq, Repr

/-- segwit_addr.c:86-141.  `hrp` and `data` are the caller's buffers.  If there is no separator,
`hrp_len` wraps to `SIZE_MAX` (not caught by `hrp_len < 1`) and the prefix loop runs up to the
terminating NUL. -/
def bech32Decode (hrp data : Bytes) (dataLen : Nat) (input : Bytes) : C Bech32Result := do
  if input.length < 8 ∨ input.length > maxBech32Size then return ⟨false, hrp, data, dataLen⟩
  let dataLen := (input.reverse.takeWhile (· ≠ 0x31)).length
  let hrpLen := if 1 + dataLen ≤ input.length then input.length - (1 + dataLen) else 2 ^ 64 - 1
  if hrpLen < 1 ∨ dataLen < 6 then return ⟨false, hrp, data, dataLen⟩
  let dataLen := dataLen - 6
  let (fine, s) := bech32DecHrp ((input ++ [0]).take hrpLen) { chk := 1 }
  if ¬ fine then
    let hrp ← store hrp 0 s.out
    return ⟨false, hrp, data, dataLen⟩
  let hrp ← store hrp 0 (s.out ++ [0])
  let chk := bech32HrpLow (input.take hrpLen) (bech32PolymodStep s.chk)
  let (fine, s) ← bech32DecData (input.drop (hrpLen + 1)) { s with chk, out := [] }
  let data ← store data 0 s.out
  return ⟨fine && !(s.lower && s.upper) && s.chk == 1, hrp, data, dataLen⟩

/-- segwit_addr.c:150-153: emit groups while there are enough bits; `fuel` bounds the loop (at most
`bits` rounds). -/
def convertEmit (outbits : Nat) (val : UInt32) : Nat → Nat → Bytes → Nat × Bytes
  | 0, bits, out => (bits, out)
  | fuel + 1, bits, out =>
    if bits ≥ outbits then
      let bits := bits - outbits
      convertEmit outbits val fuel bits
        (out ++ [((val >>> UInt32.ofNat bits) &&& ((1 <<< UInt32.ofNat outbits) - 1)).toUInt8])
    else (bits, out)

/-- segwit_addr.c:147-154. -/
def convertLoop (outbits inbits : Nat) : Bytes → UInt32 → Nat → Bytes → UInt32 × Nat × Bytes
  | [], val, bits, out => (val, bits, out)
  | x :: r, val, bits, out =>
    let val := (val <<< UInt32.ofNat inbits) ||| x.toUInt32
    let (bits', out') := convertEmit outbits val (bits + inbits) (bits + inbits) out
    convertLoop outbits inbits r val bits' out'

/-- segwit_addr.c:143-163 with `*outlen = 0` on entry: return value and the values written. -/
def convertBits (outbits : Nat) (input : Bytes) (inbits : Nat) (pad : Bool) : Bool × Bytes :=
  let maxv : UInt32 := (1 <<< UInt32.ofNat outbits) - 1
  let (val, bits, out) := convertLoop outbits inbits input 0 0 []
  let last := (val <<< UInt32.ofNat (outbits - bits)) &&& maxv
  if pad then
    if bits ≠ 0 then (true, out ++ [last.toUInt8]) else (true, out)
  else if last ≠ 0 ∨ bits ≥ inbits then (false, out)
  else (true, out)

/-- segwit_addr.c:165-175.  `int witver`; storing it in a byte keeps it modulo 256. -/
def segwitAddrEncode (output hrp : Bytes) (witver : Int) (prog : Bytes) : C (Bool × Bytes) := do
  if witver > 16 then return (false, output)
  if witver = 0 ∧ prog.length ≠ 20 ∧ prog.length ≠ 32 then return (false, output)
  if prog.length < 2 ∨ prog.length > 40 then return (false, output)
  let (_, conv) := convertBits 5 prog 8 true
  let data ← store (zeros 65) 0 (UInt8.ofNat (witver % 256).toNat :: conv)
  bech32Encode output hrp (data.take (conv.length + 1))

/-- What `segwit_addr_decode` leaves behind. -/
structure SegwitResult where
  ret : Bool
  ver : Int
  prog : Bytes
  progLen : Nat
deriving DecidableEq, Repr

/-- The C string in a buffer: up to the first NUL. -/
def cstr (b : Bytes) : Bytes := b.takeWhile (· ≠ 0)

/-- segwit_addr.c:177-191.  `strncmp(hrp, hrp_actual, 84)` compares the first 84 characters of the
two strings. The local arrays are uninitialised in C; nothing is read from them before being written. -/
def segwitAddrDecode (ver : Int) (prog : Bytes) (progLen : Nat) (hrp addr : Bytes) : C SegwitResult := do
  let r ← bech32Decode (zeros 84) (zeros 84) 0 addr
  if ¬ r.ret then return ⟨false, ver, prog, progLen⟩
  if r.dataLen = 0 ∨ r.dataLen > 65 then return ⟨false, ver, prog, progLen⟩
  if hrp.take 84 ≠ (cstr r.hrp).take 84 then return ⟨false, ver, prog, progLen⟩
  let d0 := r.data.getD 0 0
  if d0 > 16 then return ⟨false, ver, prog, progLen⟩
  let (fine, conv) := convertBits 8 ((r.data.take r.dataLen).drop 1) 5 false
  let prog ← store prog 0 conv
  if ¬ fine then return ⟨false, ver, prog, conv.length⟩
  if conv.length < 2 ∨ conv.length > 40 then return ⟨false, ver, prog, conv.length⟩
  if d0 = 0 ∧ conv.length ≠ 20 ∧ conv.length ≠ 32 then return ⟨false, ver, prog, conv.length⟩
  return ⟨true, d0.toNat, prog, conv.length⟩

end UB
