import Verif.Model.Sha2
import Verif.Model.Bignum
import Verif.Model.BignumFormat
import Verif.Model.Sha3

/-
`sha256_End`, `sha256_Data`, `sha512_End`, `sha512_Data` (src/utility/trezor/sha2.c), `sha3_256`, `sha3_512` (sha3.c) and the functions between `bignum256` and 32 or 64 bits
(src/utility/trezor/bignum.h).
-/

namespace UB

/-- sha2.c:270 `sha2_hex_digits`. -/
def sha2HexDigits : Bytes := [48, 49, 50, 51, 52, 53, 54, 55, 56, 57, 97, 98, 99, 100, 101, 102]

/-- sha2.c:551-555, 860-864: the loop; `buffer` is the array and `pos` the index the pointer has reached. -/
def digestLoop : Bytes → Nat → Bytes → C (Nat × Bytes)
  | [], pos, buf => return (pos, buf)
  | d :: ds, pos, buf => do
    let buf ← store buf pos [sha2HexDigits.getD ((d &&& 0xf0) >>> 4).toNat 0]
    let buf ← store buf (pos + 1) [sha2HexDigits.getD (d &&& 0x0f).toNat 0]
    digestLoop ds (pos + 2) buf

namespace Sha2Code

variable {W BC : Type} [Add W] [OfNat W 0] (P : Sha2Code W BC)

/-- sha2.c:544-562 `sha256_End`, 853-871 `sha512_End`: the context, and the array with the index of the pointer that is returned
(`none` for a null pointer). -/
def endText (c : Sha2Ctx W BC) (buffer : Option Bytes) : C (Sha2Ctx W BC × Option (Nat × Bytes)) :=
  match buffer with
  | some buf => do
    let (c, digest) := P.final c
    let (pos, buf) ← digestLoop digest 0 buf
    let buf ← store buf pos [0]
    return (c, some (pos, buf))
  | none => return (P.wiped, none)

/-- sha2.c:571-577 `sha256_Data`, 880-886 `sha512_Data`. -/
def dataText (data : Bytes) (buffer : Option Bytes) : C (Option (Nat × Bytes)) := do
  return (← P.endText (P.update P.init data) buffer).2

end Sha2Code

/-- sha3.c:383-397 `sha3_256`, `sha3_512`. -/
def Sha3.raw (bits : Nat) (aligned : Bool) (data : Bytes) : C Bytes := do
  return (← Sha3.final (← Sha3.update aligned (← Sha3.init bits) data)).2

namespace BN

/-- bignum.h:68-71 `bn_write_uint32`. -/
def toUInt32 (a : BN) : UInt32 := a.getD 0 0 ||| (a.getD 1 0 <<< 30)

/-- bignum.h:73-82 `bn_write_uint64`. -/
def toUInt64 (a : BN) : UInt64 :=
  let tmp := (a.getD 2 0).toUInt64
  let tmp := tmp <<< 30
  let tmp := tmp ||| (a.getD 1 0).toUInt64
  let tmp := tmp <<< 30
  tmp ||| (a.getD 0 0).toUInt64

/-- bignum.h:159-165 `bn_format_uint64`. -/
def formatUInt64 (amount : UInt64) (pre suf : Bytes) (decimals : Nat) (exponent : Int) (trailing : Bool) (out : Bytes) : C (Option (Nat × Bytes)) :=
  format (ofUInt64 amount) pre suf decimals exponent trailing out

end BN
end UB
