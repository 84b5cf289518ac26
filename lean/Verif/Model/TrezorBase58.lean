import Verif.Model.Conversion

/-
src/utility/trezor/base58.c: the base-58 functions of the trezor code (the library's own are in Model/Conversion).  The functions for
Graphene addresses (235-295) are compiled only with USE_GRAPHENE and not modelled.  Sizes are natural numbers: lengths of 2^31 bytes and
more, at which `ssize_t` (int32_t, line 33) would wrap, and negative values of the `int` parameters are not modelled.
-/

namespace UB
namespace TrezorBase58

/-- base58.c:35 `b58digits_ordered`; the same characters as in Conversion.cpp:13. -/
def digitsOrdered : Bytes := [
  49, 50, 51, 52, 53, 54, 55, 56, 57, 65, 66, 67, 68, 69, 70, 71, 72, 74, 75, 76,
  77, 78, 80, 81, 82, 83, 84, 85, 86, 87, 88, 89, 90, 97, 98, 99, 100, 101, 102, 103,
  104, 105, 106, 107, 109, 110, 111, 112, 113, 114, 115, 116, 117, 118, 119, 120, 121, 122]

/-- base58.c:36-45 `b58digits_map`. -/
def digitsMap : List Int := [
  -1,-1,-1,-1,-1,-1,-1,-1,-1,-1,-1,-1,-1,-1,-1,-1,
  -1,-1,-1,-1,-1,-1,-1,-1,-1,-1,-1,-1,-1,-1,-1,-1,
  -1,-1,-1,-1,-1,-1,-1,-1,-1,-1,-1,-1,-1,-1,-1,-1,
  -1, 0, 1, 2, 3, 4, 5, 6, 7, 8,-1,-1,-1,-1,-1,-1,
  -1, 9,10,11,12,13,14,15,16,-1,17,18,19,20,21,-1,
  22,23,24,25,26,27,28,29,30,31,32,-1,-1,-1,-1,-1,
  -1,33,34,35,36,37,38,39,40,41,42,43,-1,44,45,46,
  47,48,49,50,51,52,53,54,55,56,57,-1,-1,-1,-1,-1]

/-! ### Decoding -/

/-- base58.c:71-73: number of leading '1' characters (`unsigned`, not wrapping below 2^32). -/
def countOnes : Bytes → Nat
  | [] => 0
  | c :: cs => if c = 49 then countOnes cs + 1 else 0

/-- base58.c:84-89: multiply the number in `outi` by 58 and add a digit, from the last word to the first.  The list holds the words
in this order, that is `outi` reversed; the second component is the carry out of `outi[0]`. -/
def mulAddWords : UInt32 → List UInt32 → List UInt32 × UInt32
  | c, [] => ([], c)
  | c, w :: ws =>
    let t : UInt64 := w.toUInt64 * 58 + c.toUInt64
    let r := mulAddWords ((t &&& 0x3f00000000) >>> 32).toUInt32 ws
    ((t &&& 0xffffffff).toUInt32 :: r.1, r.2)

/-- base58.c:75-96: the loop over the digits; `none` is `return false`.  `outi` is reversed, so that `outi[0]` is the last entry. -/
def readDigits (zeromask : UInt32) : Bytes → List UInt32 → Option (List UInt32)
  | [], o => some o
  | ch :: t, o =>
    if ch &&& 0x80 ≠ 0 then none
    else
      let v := digitsMap.getD ch.toNat (-1)
      if v = -1 then none
      else
        let r := mulAddWords (UInt32.ofNat v.toNat) o
        if r.2 ≠ 0 then none
        else if r.1.getLastD 0 &&& zeromask ≠ 0 then none
        else readDigits zeromask t r.1

/-- base58.c:98-112: the bytes of the incomplete first word. -/
def headBytes (w : UInt32) : Nat → Bytes
  | 3 => [((w &&& 0xff0000) >>> 16).toUInt8, ((w &&& 0xff00) >>> 8).toUInt8, (w &&& 0xff).toUInt8]
  | 2 => [((w &&& 0xff00) >>> 8).toUInt8, (w &&& 0xff).toUInt8]
  | 1 => [(w &&& 0xff).toUInt8]
  | _ => []

/-- base58.c:114-120: the bytes of a complete word. -/
def wordBytes (w : UInt32) : Bytes :=
  [((w >>> 24) &&& 0xff).toUInt8, ((w >>> 16) &&& 0xff).toUInt8, ((w >>> 8) &&& 0xff).toUInt8, (w &&& 0xff).toUInt8]

/-- base58.c:98-120: all bytes written to `bin`; here the words are in the order of `outi`. -/
def binBytes (bytesleft : Nat) : List UInt32 → Bytes
  | [] => []
  | w :: ws => if bytesleft = 0 then (w :: ws).flatMap wordBytes else headBytes w bytesleft ++ ws.flatMap wordBytes

/-- base58.c:122-137: the canonical number of bytes, from position `i` on; return value and `*binszp`. -/
def canonical (zerocount : Nat) : Nat → Bytes → Nat → Bool × Nat
  | _, [], sz => (true, sz + zerocount)
  | i, b :: bs, sz =>
    if b ≠ 0 then (if zerocount > i then (false, sz) else (true, sz + zerocount))
    else canonical zerocount (i + 1) bs (sz - 1)

/-- base58.c:47-138 `b58tobin`: return value, `*binszp` and the contents of `bin`.  The text is given without its terminator. -/
def b58tobin (bin : Bytes) (binsz : Nat) (text : Bytes) : C (Bool × Nat × Bytes) :=
  if binsz = 0 then .ok (false, 0, bin)
  else
    let bytesleft := binsz % 4
    let zeromask : UInt32 := if bytesleft ≠ 0 then 0xffffffff <<< UInt32.ofNat (bytesleft * 8) else 0
    let zerocount := countOnes text
    match readDigits zeromask (text.drop zerocount) (List.replicate ((binsz + 3) / 4) 0) with
    | none => .ok (false, binsz, bin)
    | some o => do
      let bin ← store bin 0 (binBytes bytesleft o.reverse)
      let r := canonical zerocount 0 (bin.take binsz) binsz
      return (r.1, r.2, bin)

/-- base58.c:152-155: the bytes from `binc[i]` to the end of the array and the characters from `base58str[i]` on (the terminator not
included); `true` is `return -3`.  Reading beyond the array is undefined. -/
def zeroRun : Bytes → Bytes → C Bool
  | [], _ => .ub
  | b :: bs, t => if b = 0 ∧ t.head? = some 49 then zeroRun bs t.tail else .ok (b = 0 ∨ t.head? = some 49)

/-- base58.c:140-158 `b58check`; `bin` are the bytes from the pointer to the end of its array, `H` is the hash function chosen. -/
def b58check (H : Bytes → Bytes) (bin : Bytes) (binsz : Nat) (text : Bytes) : C Int :=
  if binsz < 4 then .ok (-4)
  else do
    let payload ← load bin 0 (binsz - 4)
    let sum ← load bin (binsz - 4) 4
    if sum ≠ (H payload).take 4 then return -1
    else do
      let bad ← zeroRun bin text
      if bad then return -3
      else return (bin.headD 0).toNat

/-- base58.c:217-233 `base58_decode_check`: return value and contents of `data`.  Lines 222-227: the pointer `nd` must not leave the
array `d` (whose initial contents do not matter). -/
def decodeCheck (H : Bytes → Bytes) (text data : Bytes) (datalen : Nat) : C (Nat × Bytes) :=
  if datalen > 128 then .ok (0, data)
  else do
    let (success, res, d) ← b58tobin (zeros (datalen + 4)) (datalen + 4) text
    if !success then return (0, data)
    else if res > datalen + 4 then .ub
    else do
      let nd := d.drop (datalen + 4 - res)
      let r ← b58check H nd res text
      if r < 0 then return (0, data)
      else do
        let data ← store data 0 (nd.take (res - 4))
        return (res - 4, data)

/-! ### Encoding -/

/-- base58.c:176-181: the inner loop for one byte.  The list is the part of `buf` not yet visited, from the end to the start; `k` is
the number of positions above `high` in it.  Result: these positions afterwards and how many were visited. -/
def encPass : Nat → Nat → Bytes → C (Bytes × Nat)
  | k, carry, [] => if k = 0 ∧ carry = 0 then .ok ([], 0) else .ub
  | k, carry, d :: ds =>
    if k = 0 ∧ carry = 0 then .ok (d :: ds, 0)
    else do
      let c := carry + 256 * d.toNat
      let r ← encPass (k - 1) (c / 58) ds
      return (UInt8.ofNat (c % 58) :: r.1, r.2 + 1)

/-- base58.c:174-182: the outer loop; `buf` is reversed and `k` is `size - 1 - high`. -/
def encLoop : Bytes → Nat → Bytes → C Bytes
  | [], _, buf => .ok buf
  | b :: bs, k, buf => do
    let r ← encPass k b.toNat buf
    encLoop bs r.2 r.1

/-- base58.c:184: skip leading zeros. -/
def skipZeros : Bytes → Bytes
  | [] => []
  | b :: bs => if b = 0 then skipZeros bs else b :: bs

/-- base58.c:160-200 `b58enc`: return value, `*b58sz` and the contents of `b58`. -/
def b58enc (b58 : Bytes) (b58sz : Nat) (data : Bytes) : C (Bool × Nat × Bytes) := do
  let zcount := countZeros data
  let size := (data.length - zcount) * 138 / 100 + 1
  let buf ← encLoop (data.drop zcount) 0 (zeros size)
  let digits := skipZeros buf.reverse
  if b58sz ≤ zcount + digits.length then return (false, zcount + digits.length + 1, b58)
  else do
    let b58 ← store b58 0 (List.replicate zcount 49 ++ digits.map (fun d => digitsOrdered.getD d.toNat 0) ++ [0])
    return (true, zcount + digits.length + 1, b58)

/-- base58.c:202-215 `base58_encode_check`: return value and contents of `str`, whose size is `strsize`.  The data and the hash lie in
one buffer of which `datalen + 4` bytes are encoded. -/
def encodeCheck (H : Bytes → Bytes) (data out : Bytes) : C (Nat × Bytes) :=
  if data.length > 128 then .ok (0, out)
  else do
    let r ← b58enc out out.length ((data ++ H data).take (data.length + 4))
    return (if r.1 then r.2.1 else 0, r.2.2)

end TrezorBase58
end UB
