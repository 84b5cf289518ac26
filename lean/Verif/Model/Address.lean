import Verif.Model.Script
import Verif.Model.Hash
import Verif.Model.Conversion
import Verif.Model.Bech32

/-
Model of the script templates and addresses: src/Script.cpp (16-255, 332-406, 455-478),
src/Networks.cpp, src/Bitcoin.cpp:372-433.

Public keys and signatures enter only through the bytes `PublicKey::sec` and `Signature::der` produce,
which are parameters here.
-/

namespace UB

/-- Networks.h `Network`. -/
structure Network where
  p2pkh : UInt8
  p2sh : UInt8
  bech32 : Bytes
  wif : UInt8
  xprv : Bytes
  yprv : Bytes
  zprv : Bytes
  Yprv : Bytes
  Zprv : Bytes
  xpub : Bytes
  ypub : Bytes
  zpub : Bytes
  Ypub : Bytes
  Zpub : Bytes
  coin : UInt32
deriving DecidableEq, Repr

/-- Networks.cpp:4-20. -/
def mainnet : Network where
  p2pkh := 0x00
  p2sh := 0x05
  bech32 := [98, 99]
  wif := 0x80
  xprv := [0x04, 0x88, 0xad, 0xe4]
  yprv := [0x04, 0x9d, 0x78, 0x78]
  zprv := [0x04, 0xb2, 0x43, 0x0c]
  Yprv := [0x02, 0x95, 0xb0, 0x05]
  Zprv := [0x02, 0xaa, 0x7a, 0x99]
  xpub := [0x04, 0x88, 0xb2, 0x1e]
  ypub := [0x04, 0x9d, 0x7c, 0xb2]
  zpub := [0x04, 0xb2, 0x47, 0x46]
  Ypub := [0x02, 0x95, 0xb4, 0x3f]
  Zpub := [0x02, 0xaa, 0x7e, 0xd3]
  coin := 0

/-- Networks.cpp:22-38. -/
def testnet : Network where
  p2pkh := 0x6F
  p2sh := 0xC4
  bech32 := [116, 98]
  wif := 0xEF
  xprv := [0x04, 0x35, 0x83, 0x94]
  yprv := [0x04, 0x4a, 0x4e, 0x28]
  zprv := [0x04, 0x5f, 0x18, 0xbc]
  Yprv := [0x02, 0x42, 0x85, 0xb5]
  Zprv := [0x02, 0x57, 0x50, 0x48]
  xpub := [0x04, 0x35, 0x87, 0xcf]
  ypub := [0x04, 0x4a, 0x52, 0x62]
  zpub := [0x04, 0x5f, 0x1c, 0xf6]
  Ypub := [0x02, 0x42, 0x89, 0xef]
  Zpub := [0x02, 0x57, 0x54, 0x83]
  coin := 1

/-- Networks.cpp:40-56. -/
def regtest : Network := { testnet with bech32 := [98, 99, 114, 116] }

/-- Networks.cpp:59. -/
def signet : Network := testnet

/-- Networks.cpp:61. -/
def networks : List Network := [mainnet, testnet, regtest, signet]

/-- Bitcoin.h `ScriptType`. -/
inductive ScriptType
  | unknown | p2pkh | p2sh | p2wpkh | p2wsh | p2sh_p2wpkh | p2sh_p2wsh
deriving DecidableEq, Repr

/-- Script.cpp:16-23. -/
def pkh (sec : Bytes) : Script := Script.ofBuffer ([0x76, 0xa9, 0x14] ++ hash160 sec ++ [0x88, 0xac])

/-- Script.cpp:25-32. -/
def wpkh (sec : Bytes) : Script := Script.ofBuffer ([0x00, 0x14] ++ hash160 sec)

/-- Script.cpp:112-117. -/
def wsh (s : Script) : Script := Script.ofBuffer ([0x00, 0x20] ++ sha256 (s.arr.take s.scriptLen))

/-- Script.cpp:119-124. -/
def sh (s : Script) : Script := Script.ofBuffer ([0xa9, 0x14] ++ hash160 (s.arr.take s.scriptLen) ++ [0x87])

namespace Script

/-- Script.cpp:455-461. -/
def pushKey (sc : Script) (sec : Bytes) : Script × Nat :=
  let sc := (sc.pushByte (UInt8.ofNat sec.length)).1
  let sc := (sc.pushData sec).1
  (sc, sc.scriptLen)

/-- Script.cpp:462-469.  `push(len+1)` is an `int` converted to the `uint8_t` overload. -/
def pushSig (sc : Script) (der : Bytes) (ty : UInt8) : Script × Nat :=
  let sc := (sc.pushByte (UInt8.ofNat (der.length + 1))).1
  let sc := (sc.pushData der).1
  let sc := (sc.pushByte ty).1
  (sc, sc.scriptLen)

/-- Script.cpp:332-366. -/
def type (sc : Script) : ScriptType :=
  let at? := fun (i : Nat) (v : UInt8) => sc.arr[i]? == some v
  if sc.scriptLen == 25 && at? 0 0x76 && at? 1 0xa9 && at? 2 20 && at? 23 0x88 && at? 24 0xac then .p2pkh
  else if sc.scriptLen == 23 && at? 0 0xa9 && at? 1 20 && at? 22 0x87 then .p2sh
  else if sc.scriptLen == 22 && at? 0 0x00 && at? 1 20 then .p2wpkh
  else if sc.scriptLen == 34 && at? 0 0x00 && at? 1 32 then .p2wsh
  else .unknown

/-- Script.cpp:210-235 `Script(pubkey, type)`. -/
def ofKey (sec : Bytes) (ty : ScriptType) : Script :=
  if ty = .p2pkh then
    { scriptLen := 25, arr := [0x76, 0xa9, 20] ++ hash160 sec ++ [0x88, 0xac] }
  else if ty = .p2wpkh then
    { scriptLen := 22, arr := [0x00, 20] ++ hash160 sec }
  else {}

/-- Script.cpp:236-255 `Script(other, type)`. -/
def ofScript (other : Script) (ty : ScriptType) : Script :=
  if ty = .p2sh then
    { scriptLen := 23, arr := [0xa9, 20] ++ hash160 (other.arr.take other.scriptLen) ++ [0x87] }
  else if ty = .p2wsh then
    { scriptLen := 34, arr := [0x00, 32] ++ sha256 (other.arr.take other.scriptLen) }
  else {}

/-- Script.cpp:371-380 / 382-391: Base58Check text of a version byte and a hash, copied to the buffer.
`buffer` is already zeroed. -/
def addressBase58 (buffer : Bytes) (version : UInt8) (hash : Bytes) : C (Bytes × Nat) := do
  let address := (toBase58Check doubleSha (version :: hash) (zeros 40)).2
  let l := (cstr address).length
  if l > buffer.length then return (buffer, 0)
  let buffer ← store buffer 0 (cstr address)
  return (buffer, l)

/-- Script.cpp:367-406 `address(buffer, len, network)`: new buffer and return value. -/
def address (sc : Script) (buffer : Bytes) (network : Network) : C (Bytes × Nat) := do
  let buffer := zeros buffer.length
  if sc.type = .p2pkh then
    addressBase58 buffer network.p2pkh (← load sc.arr 3 20)
  else if sc.type = .p2sh then
    addressBase58 buffer network.p2sh (← load sc.arr 2 20)
  else if sc.type = .p2wpkh ∨ sc.type = .p2wsh then
    let (_, address) ← segwitAddrEncode (zeros 76) network.bech32 (sc.arr.getD 0 0).toNat
      (← load sc.arr 2 (sc.arr.getD 1 0).toNat)
    let l := (cstr address).length
    if l > buffer.length then return (buffer, 0)
    let buffer ← store buffer 0 (cstr address)
    return (buffer, l)
  else return (buffer, 0)

/-- Script.cpp:150-156: the first network whose Bech32 prefix starts the text.  `memcmp` is taken to
stop at the first difference (the NUL of a short text differs from every prefix character). -/
def addressNetwork (addr : Bytes) : Option Network :=
  networks.find? fun n => n.bech32.isPrefixOf addr

/-- Script.cpp:178-189: which template the version byte selects. -/
def versionType (v : UInt8) : List Network → ScriptType
  | [] => .unknown
  | n :: r => if v = n.p2pkh then .p2pkh else if v = n.p2sh then .p2sh else versionType v r

/-- Script.cpp:140-209 `fromAddress`; `prog[32]` is the buffer for the witness program. -/
def fromAddress (sc : Script) (addr : Bytes) : C Script := do
  let sc := sc.clear
  if addr.length > 100 then return sc
  match addressNetwork addr with
  | some network =>
    let r ← segwitAddrDecode 0 (zeros 32) 0 network.bech32 addr
    if ¬ r.ret then return sc
    return { sc with scriptLen := r.progLen + 2, arr := [UInt8.ofNat (r.ver % 256).toNat, UInt8.ofNat r.progLen] ++ r.prog.take r.progLen }
  | none =>
    let (l, payload) := fromBase58Check doubleSha addr (zeros 21)
    if l ≠ 21 then return sc
    let hash := payload.drop 1
    match versionType (payload.getD 0 0) networks with
    | .p2pkh => return { sc with scriptLen := 25, arr := [0x76, 0xa9, 20] ++ hash ++ [0x88, 0xac] }
    | .p2sh => return { sc with scriptLen := 23, arr := [0xa9, 20] ++ hash ++ [0x87] }
    | _ => return sc

end Script

/-- Script.cpp:36-44: push every key. -/
def multiKeys (sc : Script) (keys : List Bytes) : Script := keys.foldl (fun sc k => (sc.pushKey k).1) sc

/-- Script.cpp:34-50 `multi`; `keys.length` is `pubkeys_len`. -/
def multi (threshold : UInt8) (keys : List Bytes) : Script :=
  if threshold.toNat > keys.length ∨ keys.length = 0 ∨ keys.length > 16 ∨ threshold = 0 then {}
  else
    let sc := (({} : Script).pushByte (81 + threshold - 1)).1
    let sc := multiKeys sc keys
    let sc := (sc.pushByte (81 + UInt8.ofNat keys.length - 1)).1
    (sc.pushByte 174).1

/-- Script.cpp:105-110 `sortedmulti`: the keys are not sorted. -/
def sortedmulti (threshold : UInt8) (keys : List Bytes) : Script := multi threshold keys

end UB
