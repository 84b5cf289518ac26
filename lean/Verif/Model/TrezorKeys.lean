import Verif.Model.TrezorBase58
import Verif.Model.Mnemonic

/-
src/utility/trezor/ecdsa.c:869-938, 1131-1166 and address.c: DER, addresses and WIF of the trezor code.  The hash functions (`HasherType`)
are parameters.  The Ethereum addresses of address.c are compiled out (USE_ETHEREUM 0).
-/

namespace UB
namespace TrezorKeys
open TrezorBase58

/-! ### DER -/

/-- ecdsa.c:1143, 1157: skip leading zeros, reading `sig[i]` before `i` is compared with the end; `n` positions are left to the end. -/
def skipSig (sig : Bytes) : Nat → Nat → C Nat
  | 0, i => do
    let _ ← byteAt sig i
    return i
  | n + 1, i => do
    let b ← byteAt sig i
    if b = 0 then skipSig sig n (i + 1) else return i

/-- ecdsa.c:1141-1149, 1155-1163: the content of one integer (written byte by byte behind a length counted up with it). -/
def derPart (sig : Bytes) (start stop : Nat) : C Bytes := do
  let i ← skipSig sig (stop - start) start
  let b ← byteAt sig i
  let body ← load sig i (stop - i)
  return (if b ≥ 0x80 then [0] else []) ++ body

/-- ecdsa.c:1131-1166 `ecdsa_sig_to_der`: return value and contents of `der`.  The bytes are stored at once here, one by one in the
code. -/
def sigToDer (sig der : Bytes) : C (Nat × Bytes) := do
  let r ← derPart sig 0 32
  let s ← derPart sig 32 64
  let len := UInt8.ofNat r.length + UInt8.ofNat s.length + 4
  let der ← store der 0 ([0x30, len, 0x02, UInt8.ofNat r.length] ++ r ++ [0x02, UInt8.ofNat s.length] ++ s)
  return (len.toNat + 2, der)

/-! ### Addresses and WIF -/

/-- address.c:28-34 `address_prefix_bytes_len`. -/
def prefixLen (v : UInt32) : Nat := if v ≤ 0xFF then 1 else if v ≤ 0xFFFF then 2 else if v ≤ 0xFFFFFF then 3 else 4

/-- address.c:36-42 `address_write_prefix_bytes`: the bytes written. -/
def prefixBytes (v : UInt32) : Bytes :=
  (if v > 0xFFFFFF then [(v >>> 24).toUInt8] else []) ++ (if v > 0xFFFF then [((v >>> 16) &&& 0xFF).toUInt8] else []) ++
    (if v > 0xFF then [((v >>> 8) &&& 0xFF).toUInt8] else []) ++ [(v &&& 0xFF).toUInt8]

/-- address.c:44-56 `address_check_prefix`. -/
def checkPrefix (addr : Bytes) (v : UInt32) : C Bool :=
  if v ≤ 0xFF then do
    let a ← byteAt addr 0
    return v = a.toUInt32
  else if v ≤ 0xFFFF then do
    let a ← byteAt addr 0
    let b ← byteAt addr 1
    return v = (a.toUInt32 <<< 8) ||| b.toUInt32
  else if v ≤ 0xFFFFFF then do
    let a ← byteAt addr 0
    let b ← byteAt addr 1
    let c ← byteAt addr 2
    return v = (a.toUInt32 <<< 16) ||| (b.toUInt32 <<< 8) ||| c.toUInt32
  else do
    let a ← byteAt addr 0
    let b ← byteAt addr 1
    let c ← byteAt addr 2
    let d ← byteAt addr 3
    return v = (a.toUInt32 <<< 24) ||| (b.toUInt32 <<< 16) ||| (c.toUInt32 <<< 8) ||| d.toUInt32

/-- ecdsa.c:869-881 `ecdsa_get_pubkeyhash`: the 20 bytes written; `Hp` is the hash function (`hasher_pubkey`), which fills the local
array `h`, of which the first 20 bytes are taken. -/
def pubkeyHash (Hp : Bytes → Bytes) (pub : Bytes) : C Bytes := do
  let b ← byteAt pub 0
  let key ← load pub 0 (if b = 0x04 then 65 else if b = 0x00 then 1 else 33)
  load (Hp key) 0 20

/-- ecdsa.c:883-898 `ecdsa_get_address_raw`, `ecdsa_get_address`: the contents of `addr`.  `raw` has 65 bytes (ecdsa.h:54). -/
def getAddress (Hp Hb : Bytes → Bytes) (pub : Bytes) (version : UInt32) (addr : Bytes) : C Bytes := do
  let raw ← store (zeros 65) 0 (prefixBytes version)
  let raw ← store raw (prefixLen version) (← pubkeyHash Hp pub)
  let data ← load raw 0 (20 + prefixLen version)
  let r ← encodeCheck Hb data addr
  return r.2

/-- ecdsa.c:900-918 `ecdsa_get_address_segwit_p2sh_raw`, `ecdsa_get_address_segwit_p2sh`.  The hash is written to `raw` in full. -/
def getAddressSegwitP2sh (Hp Hb : Bytes → Bytes) (pub : Bytes) (version : UInt32) (addr : Bytes) : C Bytes := do
  let h ← pubkeyHash Hp pub
  let raw ← store (zeros 65) 0 (prefixBytes version)
  let raw ← store raw (prefixLen version) (Hp ([0, 20] ++ h))
  let data ← load raw 0 (prefixLen version + 20)
  let r ← encodeCheck Hb data addr
  return r.2

/-- ecdsa.c:920-930 `ecdsa_get_wif`.  `wif_raw` has 37 bytes (ecdsa.h:61). -/
def getWif (Hb : Bytes → Bytes) (priv : Bytes) (version : UInt32) (wif : Bytes) : C Bytes := do
  let raw ← store (zeros 37) 0 (prefixBytes version)
  let raw ← store raw (prefixLen version) (← load priv 0 32)
  let raw ← store raw (prefixLen version + 32) [0x01]
  let data ← load raw 0 (prefixLen version + 32 + 1)
  let r ← encodeCheck Hb data wif
  return r.2

/-- ecdsa.c:932-938 `ecdsa_address_decode` for a text that is not NULL: return value and contents of `out`. -/
def addressDecode (Hb : Bytes → Bytes) (addr : Bytes) (version : UInt32) (out : Bytes) : C (Bool × Bytes) := do
  let r ← decodeCheck Hb addr out (20 + prefixLen version)
  if r.1 = 20 + prefixLen version then do
    let ok ← checkPrefix r.2 version
    return (ok, r.2)
  else return (false, r.2)

end TrezorKeys
end UB
