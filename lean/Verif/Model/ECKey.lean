import Verif.Model.Ecdsa
import Verif.Model.Signature
import Verif.Model.Address

/-
Model of BitcoinCurve.h, BitcoinCurve.cpp (points and scalars) and of the classes PublicKey and PrivateKey in Bitcoin.h:98-240,
Bitcoin.cpp:372-700 (the address functions and scripts of a key are in Model/Address).

Numbers drawn by `generate_k_random` are parameters (`z`), as in Model/Ecdsa.  Contents of uninitialised stack memory that the code
copies are parameters too (`junk`).  The function-local static variable `first_byte` of `ECPoint::from_stream` is passed in and out (`fb`);
operators that parse a complete key inside overwrite it before it is used, so there it is passed as 0 and dropped.
-/

namespace UB
open BN

/-- BitcoinCurve.h:9-24 `class ECPoint` with its `Streamable` members, as left by the constructor without arguments; `point` has 64
bytes.  Also stands for `class PublicKey`, which has no further members. -/
structure ECPoint where
  status : Status := .done
  bytesParsed : Nat := 0
  point : Bytes := zeros 64
  compressed : Bool := true
deriving DecidableEq, Repr

namespace ECPoint

/-- BitcoinCurve.h:18 `length`. -/
def length (p : ECPoint) : Nat := if p.compressed then 33 else 65

/-- BitcoinCurve.cpp:62-81 `to_stream`. -/
def toStream (p : ECPoint) (cap : Option Nat) (offset : Nat) : C Bytes := do
  let s : Ser := ⟨cap, []⟩
  if !s.avail then return []
  else do
    let y63 ← entry p.point 63
    let s := if offset = 0 then s.push [if p.compressed then 0x02 + (y63 &&& 0x01) else 0x04] else s
    let s ← s.emit p.point 1 p.length offset
    return s.out

/-- BitcoinCurve.cpp:82-85 `sec(arr, len)`: return value and new contents of the `len` bytes. -/
def sec (p : ECPoint) (len : Nat) : C (Nat × Bytes) := serialize p.toStream len 0 .raw

/-- BitcoinCurve.cpp:108-116 `isValid`. -/
def isValid (p : ECPoint) : C Bool :=
  if p.status ≠ .done then .ok false
  else do
    let (_, buf) ← p.sec 65
    let (ok, _) ← readPubkey buf CurvePoint.infinity
    return ok

/-- BitcoinCurve.cpp:117-119 `isEven`. -/
def isEven (p : ECPoint) : C Bool := do
  let y ← entry p.point 63
  return (y &&& 0x01) == 0

/-- BitcoinCurve.cpp:45-58, when all bytes have been read: new `point` and `status`. -/
def finish (junk : Bytes) (fb : UInt8) (p : ECPoint) : C ECPoint := do
  let p ← if p.compressed then do
      let x ← load p.point 0 32
      let (_, arr) ← uncompressPubkey (fb :: x) junk
      let q ← load arr 1 64
      pure { p with point := q, status := Status.done }
    else pure { p with status := Status.done }
  let ok ← p.isValid
  return if ok then p else { p with status := .failed }

/-- BitcoinCurve.cpp:41-60: the loop reading `toRead` bytes and the end of the function; `br` bytes have been read before. -/
def body (junk : Bytes) (fb : UInt8) (p : ECPoint) (br toRead : Nat) (st : PStream) : ECPoint × Nat × PStream :=
  let (bs, st) := st.readN toRead
  match (if bs = [] then C.ok p.point else if p.bytesParsed + br = 0 then .ub else store p.point (p.bytesParsed + br - 1) bs) with
  | .ub => ({ p with status := .ub }, 0, st)
  | .ok q =>
    let p := { p with point := q }
    let br := br + bs.length
    match (if toRead = bs.length then finish junk fb p else .ok p) with
    | .ub => ({ p with status := .ub }, 0, st)
    | .ok p => ({ p with bytesParsed := p.bytesParsed + br }, br, st)

/-- BitcoinCurve.cpp:10-61 `from_stream`: new object and new `first_byte`, return value, rest of the stream.  (That the caller changes
`compressed` between two chunks is not modelled: `length` is then below `bytesParsed` and the subtraction in line 22 wraps.) -/
def fromStream (junk : Bytes) (fb : UInt8) (p : ECPoint) (st : PStream) : (ECPoint × UInt8) × Nat × PStream :=
  if p.status = .failed ∨ p.status = .ub then ((p, fb), 0, st)
  else
    let p := if p.status = .done then { p with bytesParsed := 0 } else p
    let p := { p with status := .incomplete }
    if p.bytesParsed > 0 then
      let r := body junk fb p 0 (p.length - p.bytesParsed) st
      ((r.1, fb), r.2)
    else if st.avail then
      let (c, st) := st.readByte
      if c < 0x02 ∨ c > 0x04 then (({ p with status := .failed, bytesParsed := p.bytesParsed + 1 }, fb), 1, st)
      else
        let p := { p with compressed := c != 0x04 }
        let r := body junk c p 1 (if c = 0x04 then 64 else 32) st
        ((r.1, c), r.2)
    else
      let r := body junk fb p 0 33 st
      ((r.1, fb), r.2)

/-- BitcoinCurve.cpp:86-89 `fromSec`, also `parse(arr, len)` (BaseClasses): new object and return value. -/
def fromSec (junk : Bytes) (p : ECPoint) (arr : Bytes) : ECPoint × Nat :=
  let r := fromStream junk 0 p { bytes := arr }
  (r.1.1, r.2.1)

/-- BitcoinCurve.h:37-44 `from_x` with the 32 bytes `x`. -/
def fromX (junk : Bytes) (p : ECPoint) (x : Bytes) : ECPoint × Nat := fromSec junk p (0x02 :: x)

/-- BitcoinCurve.cpp:8 `GeneratorPoint`: what the constructor from the text "0279be66…" leaves (`C36_generator`). -/
def generator : ECPoint where
  bytesParsed := 33
  point := [0x79, 0xbe, 0x66, 0x7e, 0xf9, 0xdc, 0xbb, 0xac, 0x55, 0xa0, 0x62, 0x95, 0xce, 0x87, 0x0b, 0x07,
    0x02, 0x9b, 0xfc, 0xdb, 0x2d, 0xce, 0x28, 0xd9, 0x59, 0xf2, 0x81, 0x5b, 0x16, 0xf8, 0x17, 0x98,
    0x48, 0x3a, 0xda, 0x77, 0x26, 0xa3, 0xc4, 0x65, 0x5d, 0xa4, 0xfb, 0xfc, 0x0e, 0x11, 0x08, 0xa8,
    0xfd, 0x17, 0xb4, 0x48, 0xa6, 0x85, 0x54, 0x19, 0x9c, 0x47, 0xd0, 0x8f, 0xfb, 0x10, 0xd4, 0xb8]

/-- BitcoinCurve.h:84 `operator==`. -/
def eq (p q : ECPoint) : Bool := p.point == q.point

/-- Bitcoin.h:113 `PublicKey(const ECPoint p)`. -/
def toPublic (p : ECPoint) : ECPoint := { point := p.point, compressed := p.compressed }

/-- BitcoinCurve.cpp:121-139 `operator+` (the results of `ecdsa_read_pubkey` are ignored). -/
def add (p q : ECPoint) : C ECPoint :=
  if p.eq {} then .ok q
  else if q.eq {} then .ok p
  else do
    let (_, b1) ← p.sec 65
    let (_, p1) ← readPubkey b1 CurvePoint.infinity
    let (_, b2) ← q.sec 65
    let (_, p2) ← readPubkey b2 CurvePoint.infinity
    let r ← CurvePoint.add p1 p2
    return { point := writeBE r.x ++ writeBE r.y }

/-- BitcoinCurve.cpp:140-155 `operator-()`. -/
def neg (junk : Bytes) (p : ECPoint) : C ECPoint :=
  if p.eq {} then .ok p
  else do
    let x ← load p.point 0 32
    let even ← p.isEven
    let (a, _) := fromSec junk {} ((if even then 0x03 else 0x02) :: x)
    if a.status = .ub then .ub
    else return { a with compressed := p.compressed }

/-- BitcoinCurve.cpp:156-159 `operator-(other)`. -/
def sub (junk : Bytes) (p q : ECPoint) : C ECPoint := do p.add (← q.neg junk)

/-- `memcmp(a, b, n) > 0` for arrays of the same length. -/
def memGt : Bytes → Bytes → Bool
  | a :: as, b :: bs => if a = b then memGt as bs else decide (b < a)
  | _, _ => false

/-- BitcoinCurve.cpp:264-270 `operator<`. -/
def lt (p q : ECPoint) : C Bool := do
  let (_, a) ← p.sec 65
  let (_, b) ← q.sec 65
  return memGt a b

end ECPoint

/-- BitcoinCurve.cpp:271-291 `operator*(scalar, point)`; `num` are the 32 bytes of the scalar. -/
def ECPoint.mul (num : Bytes) (p : ECPoint) (z : BN) : C ECPoint := do
  if p.eq ECPoint.generator then do
    let pub ← getPublicKey65 num z
    let (r, _) := ECPoint.fromSec [] {} pub
    if r.status = .ub then .ub
    else return { r with compressed := p.compressed }
  else do
    let x ← load p.point 0 32
    let y ← load p.point 32 32
    let res ← pointMultiply (readBE num) ⟨readBE x, readBE y⟩ z
    return { point := writeBE res.x ++ writeBE res.y, compressed := p.compressed }

/-! ### Scalars: the operators on the 32 bytes `num` (BitcoinCurve.cpp:161-263) -/

namespace Scalar

/-- BitcoinCurve.cpp:198-207 `operator+(ECScalar)`. -/
def add (a b : Bytes) : Bytes := writeBE (mod (addmod (readBE a) (readBE b) Secp.order) Secp.order)

/-- BitcoinCurve.cpp:208-216 `operator+(uint32_t)`. -/
def addi (a : Bytes) (i : UInt32) : Bytes := writeBE (mod (BN.addi (readBE a) i) Secp.order)

/-- BitcoinCurve.cpp:217-224 `operator-()`. -/
def neg (a : Bytes) : Bytes := writeBE (subtract Secp.order (readBE a))

/-- BitcoinCurve.cpp:225-233 `operator-(uint32_t)`. -/
def subi (a : Bytes) (i : UInt32) : Bytes := writeBE (mod (BN.subi (readBE a) i Secp.order) Secp.order)

/-- BitcoinCurve.cpp:234-236 `operator-(ECScalar)`. -/
def sub (a b : Bytes) : Bytes := add a (neg b)

/-- BitcoinCurve.cpp:237-246 `operator*(ECScalar)`. -/
def mul (a b : Bytes) : Bytes := writeBE (mod (multiply (readBE b) (readBE a) Secp.order) Secp.order)

/-- BitcoinCurve.cpp:247-257 `operator/(ECScalar)`. -/
def div (a b : Bytes) : C Bytes := do
  let bi ← inverse (readBE b) Secp.order
  return writeBE (mod (multiply bi (readBE a) Secp.order) Secp.order)

/-- BitcoinCurve.cpp:258-263 `operator<`. -/
def lt (a b : Bytes) : Bool := isLess (readBE a) (readBE b)

/-- BitcoinCurve.h:116 `ECScalar(uint32_t i)`. -/
def ofUInt32 (i : UInt32) : C Bytes := intToBigEndian i.toUInt64 32

/-- BitcoinCurve.cpp:176-187, when 32 bytes have been read: new contents of `num`, and whether parsing succeeded. -/
def finish (num : Bytes) : Bytes × Bool := (writeBE (mod (readBE num) Secp.order), num != zeros 32)

end Scalar

/-- BitcoinCurve.h:103-147 `class ECScalar`. -/
structure ECScalar where
  status : Status := .done
  bytesParsed : Nat := 0
  num : Bytes := zeros 32
deriving DecidableEq, Repr

/-- BitcoinCurve.cpp:163-189 `ECScalar::from_stream`: new object, return value, rest of the stream. -/
def ECScalar.fromStream (g : ECScalar) (st : PStream) : ECScalar × Nat × PStream :=
  if g.status = .failed ∨ g.status = .ub then (g, 0, st)
  else
    let g := if g.status = .done then { g with bytesParsed := 0 } else g
    let (bs, st) := st.readN (32 - g.bytesParsed)
    match (if bs = [] then C.ok g.num else store g.num g.bytesParsed bs) with
    | .ub => ({ g with status := .ub }, 0, st)
    | .ok num =>
      let bp := g.bytesParsed + bs.length
      if bp = 32 then
        let r := Scalar.finish num
        (⟨if r.2 then .done else .failed, bp, r.1⟩, bs.length, st)
      else (⟨.incomplete, bp, num⟩, bs.length, st)

/-- BitcoinCurve.cpp:190-197 `ECScalar::to_stream`. -/
def ECScalar.toStream (g : ECScalar) (cap : Option Nat) (offset : Nat) : C Bytes := do
  let s : Ser := ⟨cap, []⟩
  let s ← s.emit g.num 0 32 offset
  return s.out

/-! ### Keys -/

/-- Bitcoin.h:161-240 `class PrivateKey`; `num` has 32 bytes. -/
structure PrivKey where
  status : Status := .done
  bytesParsed : Nat := 0
  num : Bytes := zeros 32
  pubKey : ECPoint := {}
  network : Network := mainnet
deriving DecidableEq, Repr

/-- `*this * GeneratorPoint`, converted to a PublicKey. -/
def pubOf (num : Bytes) (z : BN) : C ECPoint := do
  let p ← ECPoint.mul num ECPoint.generator z
  return p.toPublic

namespace PrivKey

/-- Bitcoin.cpp:508-514 the constructor from 32 bytes. -/
def ofSecret (secret : Bytes) (z : BN) (compressed : Bool := true) (net : Network := mainnet) : C PrivKey := do
  let pub ← pubOf secret z
  return { num := secret, network := net, pubKey := { pub with compressed := compressed } }

/-- Bitcoin.cpp:515-521 the constructor from an ECScalar. -/
def ofScalar (num : Bytes) (z : BN) : C PrivKey := do
  let pub ← pubOf num z
  return { num := num, pubKey := { pub with compressed := true } }

/-- Bitcoin.h:183 `setSecret`. -/
def setSecret (k : PrivKey) (secret : Bytes) (z : BN) : C PrivKey := do
  let pub ← pubOf secret z
  return { k with num := secret, pubKey := pub }

/-- Bitcoin.cpp:475-502 `from_stream`: new object, return value, rest of the stream. -/
def fromStream (k : PrivKey) (z : BN) (st : PStream) : PrivKey × Nat × PStream :=
  if k.status = .failed ∨ k.status = .ub then (k, 0, st)
  else
    let k := if k.status = .done then { k with bytesParsed := 0 } else k
    let (bs, st) := st.readN (32 - k.bytesParsed)
    match (if bs = [] then C.ok k.num else store k.num k.bytesParsed bs) with
    | .ub => ({ k with status := .ub }, 0, st)
    | .ok num =>
      let bp := k.bytesParsed + bs.length
      if bp = 32 then
        let r := Scalar.finish num
        match pubOf r.1 z with
        | .ub => ({ k with status := .ub }, 0, st)
        | .ok pub => ({ k with status := if r.2 then .done else .failed, bytesParsed := bp, num := r.1, pubKey := pub }, bs.length, st)
      else ({ k with status := .incomplete, bytesParsed := bp, num := num }, bs.length, st)

/-- Bitcoin.cpp:536-551 `wif`: return value and new contents of the `len` bytes. -/
def wif (H : Bytes → Bytes) (k : PrivKey) (len : Nat) : Nat × Bytes :=
  toBase58Check H (k.network.wif :: (k.num ++ if k.pubKey.compressed then [0x01] else [])) (zeros len)

/-- Bitcoin.cpp:559-592 `fromWIF`: new object and return value.  (`arr[33]` is read only if 34 bytes were decoded.) -/
def fromWIF (H : Bytes → Bytes) (k : PrivKey) (text : Bytes) (z : BN) : C (PrivKey × Nat) :=
  let r := fromBase58Check H text (zeros 40)
  let l := r.1
  let arr := r.2
  if l < 33 ∨ l > 34 then .ok ({ k with num := zeros 32 }, 0)
  else
    match networks.find? fun n => arr.headD 0 == n.wif with
    | none => .ok ({ k with network := mainnet }, 0)
    | some net => do
      let num := (arr.drop 1).take 32
      let pub ← pubOf num z
      let compressed := if l = 34 then decide (arr.getD 33 0 > 0) else false
      return ({ k with network := net, num := num, pubKey := { pub with compressed := compressed } }, 1)

/-- Bitcoin.cpp:628-641 `ecdh`: the 32 bytes of `shared_secret`. -/
def ecdh (k : PrivKey) (pub : ECPoint) (useHash : Bool) (z : BN) : C Bytes := do
  let mult ← ECPoint.mul k.num pub z
  let (_, sec) ← ECPoint.sec { mult with compressed := false } 65
  let xy ← load sec 1 64
  if useHash then return sha256 xy else load sec 1 32

/-- Bitcoin.cpp:647-654 `sign`; if all rounds fail the signature is left as 64 zero bytes. -/
def sign (k : PrivKey) (hash : Bytes) (rnd : Nat → BN × BN) : C Sig := do
  let o ← signDigest (fun _ _ => true) k.num hash rnd
  match o with
  | none => return {}
  | some (sig, i) => do
    let r ← load sig 0 32
    let s ← load sig 32 32
    return { r := r, s := s, index := i }

end PrivKey

/-- Bitcoin.cpp:437-443 `PublicKey::verify`. -/
def ECPoint.verify (p : ECPoint) (sig : Sig) (hash : Bytes) (z1 z2 : BN) : C Bool := do
  let signature ← sig.bin (zeros 64)
  let (_, pub) ← serialize p.toStream 65 0 .raw
  let r ← verifyDigest pub signature hash z1 z2
  return r == 0

/-! ### Schnorr signatures -/

/-- "BIP0340/nonce" -/
def tagNonce : Bytes := [66, 73, 80, 48, 51, 52, 48, 47, 110, 111, 110, 99, 101]
/-- "BIP0340/challenge" -/
def tagChallenge : Bytes := [66, 73, 80, 48, 51, 52, 48, 47, 99, 104, 97, 108, 108, 101, 110, 103, 101]

/-- Bitcoin.cpp:669-675, 686-692 and 456-464: a tagged hash written in three pieces. -/
def tagged3 (tag a b c : Bytes) : Bytes := ((((newTaggedHash tag).write a).write b).write c).fin

/-- The statement `if(!pub.isEven()){ prv = -prv; pub = -pub; }` (Bitcoin.cpp:660-663 and 679-682). -/
def evenKey (junk : Bytes) (num : Bytes) (pub : ECPoint) (z : BN) : C (Bytes × ECPoint) := do
  let even ← pub.isEven
  if even then return (num, pub)
  else do
    let prv ← PrivKey.ofScalar (Scalar.neg num) z
    let q ← pub.neg junk
    return (prv.num, q.toPublic)

/-- Bitcoin.cpp:656-700 `schnorr_sign`; `z i` are the numbers drawn in the multiplications, in order. -/
def PrivKey.schnorrSign (key : PrivKey) (hash : Bytes) (z : Nat → BN) (junk : Bytes) : C SchnorrSig := do
  let (prv, pub) ← evenKey junk key.num key.pubKey (z 0)
  let px ← load pub.point 0 32
  let nonce := tagged3 tagNonce prv px hash
  let k ← PrivKey.ofSecret nonce (z 1)
  let (kn, R) ← evenKey junk k.num k.pubKey (z 2)
  let r ← load R.point 0 32
  let e := tagged3 tagChallenge r px hash
  let challenge ← PrivKey.ofSecret e (z 3)
  let S ← PrivKey.ofScalar (Scalar.add kn (Scalar.mul challenge.num prv)) (z 4)
  return { r := r, s := S.num }

/-- Bitcoin.cpp:445-448, the statement `if(!pub.isEven()){ pub = -pub; }`. -/
def ECPoint.evenPub (key : ECPoint) (junk : Bytes) : C ECPoint := do
  let even ← key.isEven
  if even then return key
  else do
    let q ← key.neg junk
    return q.toPublic

/-- Bitcoin.cpp:444-471 `schnorr_verify`. -/
def ECPoint.schnorrVerify (key : ECPoint) (sig : SchnorrSig) (hash : Bytes) (z : Nat → BN) (junk : Bytes) : C Bool := do
  let pub ← key.evenPub junk
  let (_, rs) ← serialize sig.toStream 64 0 .raw
  let rx ← load rs 0 32
  let (R, _) := ECPoint.fromX junk {} rx
  if R.status = .ub then .ub
  else do
    let px ← load pub.point 0 32
    let e := tagged3 tagChallenge rx px hash
    let challenge ← PrivKey.ofSecret e (z 0)
    let eP ← ECPoint.mul challenge.num pub (z 1)
    let S ← eP.add R
    let sx ← load S.point 0 32
    let sb ← load rs 32 32
    let s ← PrivKey.ofSecret sb (z 2)
    let sgx ← load s.pubKey.point 0 32
    return sx == sgx

end UB
