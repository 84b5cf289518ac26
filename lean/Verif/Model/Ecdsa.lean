import Verif.Model.CurveMul
import Verif.Model.Hash

/-
Model of the keys and signatures in utility/trezor/ecdsa.c:644-1130 (secp256k1, USE_RFC6979 = 1).
The numbers drawn by `generate_k_random` are parameters: `z` is the one drawn in `curve_to_jacobian` for a multiplication, `randk`
the one drawn in `ecdsa_sign_digest`.  `memzero` of local variables is left out.
-/

namespace UB
open BN Secp

/-- ecdsa.c:940-952 `uncompress_coords`: the new value of `y`. -/
def uncompressCoords (odd : UInt8) (x : BN) : BN :=
  let y := multiply x x prime
  let y := subi y 0 prime
  let y := multiply x y prime
  let y := BN.add y Secp.b
  let y := sqrt y prime
  if (odd &&& 1).toUInt32 != (y.headD 0 &&& 1) then subtract prime y else y

/-- ecdsa.c:978-1009 `ecdsa_validate_pubkey`. -/
def validatePubkey (pub : CurvePoint) : Bool :=
  if pub.isInfinity then false
  else if !isLess pub.x prime || !isLess pub.y prime then false
  else
    let y2 := mod (multiply pub.y pub.y prime) prime
    let x3 := multiply pub.x pub.x prime
    let x3 := subi x3 0 prime
    let x3 := multiply pub.x x3 prime
    let x3 := addmod x3 Secp.b prime
    let x3 := mod x3 prime
    isEqual x3 y2

/-- ecdsa.c:954-971 `ecdsa_read_pubkey`: return value and new contents of `pub`. -/
def readPubkey (b : Bytes) (pub : CurvePoint) : C (Bool × CurvePoint) := do
  let b0 ← entry b 0
  if b0 = 0x04 then do
    let x ← load b 1 32
    let y ← load b 33 32
    let p : CurvePoint := ⟨readBE x, readBE y⟩
    return (validatePubkey p, p)
  else if b0 = 0x02 ∨ b0 = 0x03 then do
    let x ← load b 1 32
    let p : CurvePoint := ⟨readBE x, uncompressCoords b0 (readBE x)⟩
    return (validatePubkey p, p)
  else return (false, pub)

/-- `pub_key[0] = 4; bn_write_be(x, pub_key + 1); bn_write_be(y, pub_key + 33)`. -/
def pointBytes (p : CurvePoint) : Bytes := 0x04 :: (writeBE p.x ++ writeBE p.y)

/-- ecdsa.c:854-867 `ecdsa_uncompress_pubkey`: return value and new contents of the 65 bytes `uncompressed` (whose old contents are
`old`). -/
def uncompressPubkey (b : Bytes) (old : Bytes) : C (Bool × Bytes) := do
  let (ok, p) ← readPubkey b CurvePoint.infinity
  if ok then return (true, pointBytes p) else return (false, old)

/-- ecdsa.c:825-837 `ecdsa_get_public_key33`: the 33 bytes written. -/
def getPublicKey33 (priv : Bytes) (z : BN) : C Bytes := do
  let r ← scalarMultiply (readBE priv) z
  return (0x02 ||| (r.y.headD 0 &&& 0x01).toUInt8) :: writeBE r.x

/-- ecdsa.c:839-852 `ecdsa_get_public_key65`: the 65 bytes written. -/
def getPublicKey65 (priv : Bytes) (z : BN) : C Bytes := do
  let r ← scalarMultiply (readBE priv) z
  return pointBytes r

/-- ecdsa.c:644-662 `ecdh_multiply`: return value and the 65 bytes written (`none` if nothing is written). -/
def ecdhMultiply (priv pub : Bytes) (z : BN) : C (Nat × Option Bytes) := do
  let (ok, p) ← readPubkey pub CurvePoint.infinity
  if !ok then return (1, none)
  else do
    let r ← pointMultiply (readBE priv) p z
    return (0, some (pointBytes r))

/-- ecdsa.c:766-801, one round of `ecdsa_sign_digest` with the nonce `k`: `none` is `continue`; otherwise r, s and the recovery byte. -/
def signRound (priv : Bytes) (z k zr randk : BN) : C (Option (BN × BN × UInt8)) := do
  let R ← scalarMultiply k zr
  let odd := (R.y.headD 0 &&& 1).toUInt8
  let big := !isLess R.x order
  let r := if big then subtract R.x order else R.x
  let bits := if big then odd ||| 2 else odd
  if r.isZero then return none
  else do
    let k := multiply randk k order
    let k ← inverse k order
    let s := readBE priv
    let s := multiply r s order
    let s := BN.add s z
    let s := multiply k s order
    let s := multiply randk s order
    let s := mod s order
    if s.isZero then return none
    else if isLess orderHalf s then return some (r, subtract order s, bits ^^^ 1)
    else return some (r, s, bits)

/-- ecdsa.c:749-813, the loop of `ecdsa_sign_digest` with `n` rounds left; `rnd n` are the two numbers drawn in this round (in
`scalar_multiply` and in line 779).  `none` is the return value -1. -/
def signLoop (canon : UInt8 → Bytes → Bool) (priv : Bytes) (z : BN) (rnd : Nat → BN × BN) : Nat → Rfc6979 → C (Option (Bytes × UInt8))
  | 0, _ => .ok none
  | n + 1, rng => do
    let g := rng.generate
    let k := readBE g.1
    if k.isZero || !isLess k order then signLoop canon priv z rnd n g.2
    else do
      let o ← signRound priv z k (rnd n).1 (rnd n).2
      match o with
      | none => signLoop canon priv z rnd n g.2
      | some (r, s, bits) =>
        let sig := writeBE r ++ writeBE s
        if canon bits sig then return some (sig, bits) else signLoop canon priv z rnd n g.2

/-- ecdsa.c:732-823 `ecdsa_sign_digest`: signature and recovery byte, `none` for the return value -1.  (Then `sig` and `*pby` are left
as they are, or `sig` holds a rejected signature.) -/
def signDigest (canon : UInt8 → Bytes → Bool) (priv digest : Bytes) (rnd : Nat → BN × BN) : C (Option (Bytes × UInt8)) :=
  signLoop canon priv (readBE digest) rnd 10000 (Rfc6979.init priv digest)

/-- ecdsa.c:1077-1129 `ecdsa_verify_digest`: the return value (0 if the signature is valid); `z1`, `z2` are the numbers drawn in the two
multiplications. -/
def verifyDigest (pub sig digest : Bytes) (z1 z2 : BN) : C Nat := do
  let (ok, p) ← readPubkey pub CurvePoint.infinity
  if !ok then return 1
  else do
    let r := readBE (← load sig 0 32)
    let s := readBE (← load sig 32 32)
    let z := readBE (← load digest 0 32)
    if r.isZero || s.isZero || !isLess r order || !isLess s order then return 2
    else do
      let s ← inverse s order
      let z := mod (multiply s z order) order
      let s := mod (multiply r s order) order
      if z.isZero then return 3
      else do
        let res ← scalarMultiply z z1
        let p ← pointMultiply s p z2
        let res ← CurvePoint.add p res
        let x := mod res.x order
        if !isEqual x r then return 5 else return 0

/-- ecdsa.c:1028-1074 `ecdsa_recover_pub_from_sig`: return value and the 65 bytes written; `z1`, `z2`, `z3` are the numbers drawn in the
three multiplications. -/
def recoverPub (sig digest : Bytes) (recid : UInt8) (z1 z2 z3 : BN) : C (Nat × Option Bytes) := do
  let r := readBE (← load sig 0 32)
  let s := readBE (← load sig 32 32)
  if !isLess r order || r.isZero then return (1, none)
  else if !isLess s order || s.isZero then return (1, none)
  else do
    let x := if recid &&& 2 != 0 then BN.add r order else r
    if recid &&& 2 != 0 && !isLess x prime then return (1, none)
    else do
      let cp : CurvePoint := ⟨x, uncompressCoords (recid &&& 1) x⟩
      if !validatePubkey cp then return (1, none)
      else do
        let e := readBE (← load digest 0 32)
        let e := subtractmod order e order
        let e := mod (fastMod e order) order
        let r ← inverse r order
        let cp ← pointMultiply s cp z1
        let cp2 ← scalarMultiply e z2
        let cp ← CurvePoint.add cp2 cp
        let cp ← pointMultiply r cp z3
        return (0, some (pointBytes cp))

end UB
