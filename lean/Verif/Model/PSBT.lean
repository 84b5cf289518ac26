import Verif.Model.HDWallet
import Verif.Model.TxHash

/-
Model of src/PSBT.cpp:88-773 and src/PSBT.h (the descriptor checksum of PSBT.cpp:5-86 is in Model/Descriptor).

Uninitialised stack memory that reaches a result (the candidate square root in SEC decoding, see Model/ECKey) is the parameter
`junk`, indexed by the position of the pair in the stream; numbers drawn by `generate_k_random` are parameters too.
`ubtc_errno` and allocation failures are not modelled; `calloc(0)` is taken to return a non-NULL block.
-/

namespace UB

/-- PSBT.h:11-19 `PSBTDerivation`.  `ready = false`: the members after `pubkey` have not been initialised (`new PSBTDerivation[n]` leaves
them indeterminate; PSBT.cpp:396-399). -/
structure Derivation where
  pubkey : ECPoint := {}
  ready : Bool := false
  fingerprint : Bytes := zeros 4
  path : List UInt32 := []
deriving DecidableEq, Repr

/-- PSBT.h:22-27 `PSBTPartialSignature`. -/
structure PartialSig where
  pubkey : ECPoint := {}
  signature : Sig := {}
deriving DecidableEq, Repr

/-- PSBT.h:30-45 `PSBTInputMetadata`; `derivationsLen` and `signaturesLen` are the lengths of the lists. -/
structure InMeta where
  txOut : TxOut := {}
  derivations : List Derivation := []
  redeemScript : Script := {}
  witnessScript : Script := {}
  signatures : List PartialSig := []
deriving DecidableEq, Repr

/-- PSBT.h:48-58 `PSBTOutputMetadata`. -/
structure OutMeta where
  derivations : List Derivation := []
  redeemScript : Script := {}
  witnessScript : Script := {}
deriving DecidableEq, Repr

/-- PSBT.h:70-103 `class PSBT` with the values of the constructor.  `ins` and `outs` are the arrays `txInsMeta` and `txOutsMeta`; they are
empty when the pointers are NULL or point to memory that has been given back. -/
structure PSBT where
  status : Status := .done
  bytesParsed : Nat := 0
  key : Script := {}
  value : Script := {}
  sec : UInt8 := 0
  lastKeyPos : Nat := 0
  tx : Tx := {}
  ins : List InMeta := []
  outs : List OutMeta := []
deriving DecidableEq, Repr

/-- `x.serialize(arr, x.length())` into a block of `x.length()` zero bytes: the contents of the block. -/
def Script.ser (sc : Script) : C Bytes := do
  let (_, b) ← serialize sc.toStream sc.length 0 .raw
  return b

/-- PSBT.cpp:326 and the like: the position of the data behind a length prefix, computed from the length *with* the prefix. -/
def dataPos (arr : Bytes) : Nat := lenVarIntN arr.length

/-- PSBT.cpp:400-406, 447-453 on a fresh entry: fingerprint and path from the serialized value. `derivationLen` has 8 bits. -/
def Derivation.load (d : Derivation) (va : Bytes) : C Derivation := do
  let lv := dataPos va
  let fp ← UB.load va lv 4
  let path ← (List.range ((va.length - lv - 4) / 4 % 256)).mapM fun i => do
    let b ← UB.load va (lv + 4 * (i + 1)) 4
    return (littleEndianToInt b).toUInt32
  return { d with ready := true, fingerprint := fp, path := path }

/-- PSBT.cpp:372-409, 420-456: a derivation entry with serialized key `ka` and value `va`; result code and new array.
With 255 entries the 8-bit count wraps to 0 and the entry is stored in front of the array. -/
def addDerivation (junk : Bytes) (ds : List Derivation) (ka va : Bytes) : C (Int × List Derivation) :=
  if ka.length ≠ 35 ∧ ka.length ≠ 67 then .ok (-1, ds)
  else if ds.length = 255 then .ub
  else
    let pub := (ECPoint.fromSec junk {} (ka.drop 2)).1
    if pub.status = .ub then .ub
    else if pub.status ≠ .done then .ok (-1, ds ++ [{ pubkey := pub }])
    else do
      let d ← Derivation.load { pubkey := pub } va
      return (1, ds ++ [d])

/-- PSBT.cpp:266-418, the input section: `code` is the key code, `i` the input, `ka` and `va` the serialized key and value
(their lengths are `k->length()` and `v->length()`).  Result code and new metadata. -/
def InMeta.add (junk : Bytes) (m : InMeta) (i : TxIn) (code : UInt8) (ka va : Bytes) : C (Int × InMeta) :=
  if code = 0 then
    if ka.length ≠ 2 then .ok (-1, m)
    else
      let t := (({} : Tx).fromStream { bytes := va.drop (dataPos va) }).1
      if t.status = .ub then .ub
      else if t.status ≠ .done then .ok (-2, m)
      else do
        let h ← t.hash
        if h ≠ i.hash then return (-3, m)
        else match t.txOuts[i.outputIndex.toNat]? with
          | none => return (-3, m)
          | some o => return (1, { m with txOut := m.txOut.assign o })
  else if code = 1 then
    if ka.length ≠ 2 then .ok (-1, m)
    else
      let o := (m.txOut.fromStream { bytes := va.drop (dataPos va) }).1
      if o.status = .ub then .ub
      else .ok (if o.status ≠ .done then -2 else 1, { m with txOut := o })
  else if code = 2 then
    if ka.length ≠ 35 ∧ ka.length ≠ 67 then .ok (-1, m)
    else
      let pub := (ECPoint.fromSec junk {} (ka.drop 2)).1
      let sig := (({} : Sig).fromStream { bytes := va.drop 1 }).1
      if pub.status = .ub then .ub
      else if pub.status ≠ .done then .ok (-1, m)
      else if sig.status = .ub then .ub
      else if sig.status ≠ .done then .ok (-2, m)
      else if m.signatures.length = 255 then .ub
      else .ok (1, { m with signatures := m.signatures ++ [⟨pub, sig⟩] })
  else if code = 4 then
    if ka.length ≠ 2 then .ok (-1, m)
    else
      let s := (m.redeemScript.fromStream { bytes := va }).1
      if s.status = .ub then .ub else .ok (1, { m with redeemScript := s })
  else if code = 5 then
    if ka.length ≠ 2 then .ok (-1, m)
    else
      let s := (m.witnessScript.fromStream { bytes := va }).1
      if s.status = .ub then .ub else .ok (1, { m with witnessScript := s })
  else if code = 6 then do
    let (r, ds) ← addDerivation junk m.derivations ka va
    return (r, { m with derivations := ds })
  else .ok (0, m)

/-- PSBT.cpp:419-458, the output section. -/
def OutMeta.add (junk : Bytes) (m : OutMeta) (code : UInt8) (ka va : Bytes) : C (Int × OutMeta) :=
  if code = 0 then
    if ka.length ≠ 2 then .ok (-1, m)
    else
      let s := (m.redeemScript.fromStream { bytes := va }).1
      if s.status = .ub then .ub else .ok (1, { m with redeemScript := s })
  else if code = 1 then
    if ka.length ≠ 2 then .ok (-1, m)
    else
      let s := (m.witnessScript.fromStream { bytes := va }).1
      if s.status = .ub then .ub else .ok (1, { m with witnessScript := s })
  else if code = 2 then do
    let (r, ds) ← addDerivation junk m.derivations ka va
    return (r, { m with derivations := ds })
  else .ok (0, m)

/-- The byte `arr[i]`. -/
def peek (arr : Bytes) (i : Nat) : C UInt8 :=
  match arr[i]? with
  | some b => .ok b
  | none => .ub

namespace PSBT

/-- PSBT.cpp:251-462 `add`: result code and new object.  Section `1+inputsNumber+outputsNumber` passes the check in line 252 although
there is no such output; here this is undefined behaviour for every key (the code touches the array only for some keys). -/
def add (p : PSBT) (junk : Bytes) (sec : UInt8) (k v : Script) : C (Int × PSBT) :=
  if sec = 0 ∨ sec.toNat > 1 + p.tx.txIns.length + p.tx.txOuts.length then .ok (0, p)
  else do
    let ka ← k.ser
    let va ← v.ser
    let code ← peek ka (dataPos ka)
    if sec.toNat < 1 + p.tx.txIns.length then
      match p.ins[sec.toNat - 1]?, p.tx.txIns[sec.toNat - 1]? with
      | some m, some i => do
        let (r, m) ← m.add junk i code ka va
        return (r, { p with ins := p.ins.set (sec.toNat - 1) m })
      | _, _ => .ub
    else
      match p.outs[sec.toNat - 1 - p.tx.txIns.length]? with
      | some m => do
        let (r, m) ← m.add junk code ka va
        return (r, { p with outs := p.outs.set (sec.toNat - 1 - p.tx.txIns.length) m })
      | none => .ub

/-- PSBT.cpp:94-122, 576-601 (destructor), 741-768: give the metadata back.  Entries that do not exist (any more) or have not been initialised make this undefined. -/
def release (p : PSBT) : C Unit :=
  if p.tx.txIns.length ≤ p.ins.length ∧ p.tx.txOuts.length ≤ p.outs.length
      ∧ (p.ins.take p.tx.txIns.length).all (fun m => m.derivations.all (·.ready))
      ∧ (p.outs.take p.tx.txOuts.length).all (fun m => m.derivations.all (·.ready)) then .ok ()
  else .ub

/-- PSBT.cpp:88-129: the state in which a `from_stream` call starts reading. -/
def start (p : PSBT) : PSBT :=
  let p := if p.status = .done then
    { p with ins := [], outs := [], tx := { p.tx with status := .done, bytesParsed := 0 }, bytesParsed := 0, sec := 0, lastKeyPos := 5 } else p
  { p with status := .incomplete }

/-- PSBT.cpp:130. -/
def magic : Bytes := [0x70, 0x73, 0x62, 0x74, 0xff]

/-- PSBT.cpp:131-140: the loop over the bytes `bs` of the prefix that are still to come; `n` bytes have been read so far.
The first component is false when a byte was wrong. -/
def readMagic : Bytes → Nat → PStream → Bool × Nat × PStream
  | [], n, s => (true, n, s)
  | b :: bs, n, s =>
    if s.avail then
      let (c, s) := s.readByte
      if c ≠ b then (false, n + 1, s) else readMagic bs (n + 1) s
    else (true, n, s)

/-- `status = st; bytes_parsed += bytes_read; return bytes_read;` -/
def finish (p : PSBT) (st : Status) (br : Nat) (s : PStream) : PSBT × Nat × PStream :=
  ({ p with status := st, bytesParsed := p.bytesParsed + br }, br, s)

/-- `bytes_read += s->parse(&key);` -/
def parseKey (p : PSBT) (br : Nat) (s : PStream) : PSBT × Nat × PStream :=
  let (k, n, s) := p.key.fromStream s
  ({ p with key := k }, br + n, s)

/-- `bytes_read += s->parse(&value);` -/
def parseValue (p : PSBT) (br : Nat) (s : PStream) : PSBT × Nat × PStream :=
  let (v, n, s) := p.value.fromStream s
  ({ p with value := v }, br + n, s)

/-- PSBT.cpp:201-204. -/
def sections (p : PSBT) : UInt8 :=
  if p.lastKeyPos > 5 then UInt8.ofNat (1 + p.tx.txIns.length + p.tx.txOuts.length) else 0

/-- PSBT.cpp:242-249: the end of `from_stream`. -/
def finishAll (p : PSBT) (br : Nat) (s : PStream) : PSBT × Nat × PStream :=
  if p.sec = p.sections ∧ p.sections > 0 then
    ({ p with key := p.key.assign {}, value := p.value.assign {} }).finish .done br s
  else p.finish p.status br s

/-- PSBT.cpp:231-240, the end of a round: a complete pair is handed to `add`. -/
def roundAdd (p : PSBT) (junk : Bytes) (br : Nat) (s : PStream) : (PSBT × Nat × PStream) × Bool :=
  if p.key.status = .ub ∨ p.value.status = .ub then (({ p with status := .ub }, 0, s), true)
  else if p.key.status = .done ∧ p.value.status = .done then
    match p.add junk p.sec p.key p.value with
    | .ub => (({ p with status := .ub }, 0, s), true)
    | .ok (r, q) =>
      if r < 0 then (q.finish .failed br s, true)
      else (({ q with lastKeyPos := q.lastKeyPos + (p.key.length + p.value.length) }, br, s), false)
  else ((p, br, s), false)

/-- PSBT.cpp:219-230: failures, and second attempts at an incomplete key or value. -/
def roundRetry (p : PSBT) (junk : Bytes) (br : Nat) (s : PStream) : (PSBT × Nat × PStream) × Bool :=
  if p.key.status = .ub ∨ p.value.status = .ub then (({ p with status := .ub }, 0, s), true)
  else if p.key.status = .failed ∨ p.value.status = .failed then (p.finish .failed br s, true)
  else
    let (p, br, s) := if p.key.status = .incomplete then p.parseKey br s else (p, br, s)
    let (p, br, s) := if p.value.status = .incomplete then p.parseValue br s else (p, br, s)
    p.roundAdd junk br s

/-- PSBT.cpp:207-240, one round of the loop over the pairs: the new state, and whether the function returns (`true`) or goes on. -/
def round (p : PSBT) (junk : Bytes) (br : Nat) (s : PStream) : (PSBT × Nat × PStream) × Bool :=
  let (p, br, s) := if p.key.status = .done ∧ p.value.status = .done then p.parseKey br s else (p, br, s)
  if p.key.status = .done ∧ p.key.length = 1 then
    (({ p with sec := p.sec + 1, lastKeyPos := p.lastKeyPos + 1 }, br, s), false)
  else
    let (p, br, s) := if p.key.status = .done then p.parseValue br s else (p, br, s)
    p.roundRetry junk br s

/-- PSBT.cpp:206-249: the loop over the pairs.  A round that does not end the function consumes a byte of the stream, or follows a
round in which the statuses changed, so `2 * (number of bytes) + 2` rounds are never exceeded for a stream that is not stuck; a stuck
stream (HEX text with a character that is no hex digit) ends within as many rounds because every `read()` counts as a byte 0xFF which
the length prefix refuses. -/
def loop (junk : Nat → Bytes) : Nat → PSBT → Nat → PStream → PSBT × Nat × PStream
  | 0, p, br, s => p.finishAll br s
  | fuel + 1, p, br, s =>
    if s.avail ∧ p.sec < p.sections then
      match p.round (junk p.lastKeyPos) br s with
      | (r, true) => r
      | ((p, br, s), false) => loop junk fuel p br s
    else p.finishAll br s

/-- PSBT.cpp:164-200: the first pair must be the unsigned transaction under the key `00`. -/
def readTx (p : PSBT) : C PSBT := do
  let ka ← p.key.ser
  if ka ≠ [1, 0] then return { p with status := .failed }
  else do
    let va ← p.value.ser
    let t := (p.tx.fromStream { bytes := va.drop (dataPos va) }).1
    if t.status = .ub then .ub
    else if t.status ≠ .done then return { p with status := .failed, tx := t }
    else return { p with
      tx := t, ins := List.replicate t.txIns.length {}, outs := List.replicate t.txOuts.length {}
      lastKeyPos := p.lastKeyPos + (p.key.length + p.value.length) }

/-- PSBT.cpp:164-249, after the first pair. -/
def afterGlobal (junk : Nat → Bytes) (p : PSBT) (br : Nat) (s : PStream) : PSBT × Nat × PStream :=
  if p.lastKeyPos = 5 ∧ p.value.status = .done ∧ p.key.status = .done then
    match p.readTx with
    | .ub => ({ p with status := .ub }, 0, s)
    | .ok q =>
      if q.status = .failed then q.finish .failed br s
      else loop junk (2 * s.bytes.length + 2) q br s
  else loop junk (2 * s.bytes.length + 2) p br s

/-- PSBT.cpp:155-163: the value of the first pair. -/
def globalValue (junk : Nat → Bytes) (p : PSBT) (br : Nat) (s : PStream) : PSBT × Nat × PStream :=
  let (p, br, s) := if s.avail ∧ p.value.status = .incomplete then p.parseValue br s else (p, br, s)
  if p.value.status = .ub then ({ p with status := .ub }, 0, s)
  else if p.value.status = .failed then p.finish .failed br s
  else afterGlobal junk p br s

/-- PSBT.cpp:146-154: the key of the first pair. -/
def globalKey (junk : Nat → Bytes) (p : PSBT) (br : Nat) (s : PStream) : PSBT × Nat × PStream :=
  let (p, br, s) := if s.avail ∧ p.key.status = .incomplete then p.parseKey br s else (p, br, s)
  if p.key.status = .ub then ({ p with status := .ub }, 0, s)
  else if p.key.status = .failed then
    if p.value.status = .ub then ({ p with status := .ub }, 0, s) else p.finish .failed br s
  else globalValue junk p br s

/-- PSBT.cpp:142-163: the global scope; each of the two `while` loops runs at most once, since a parser that still is incomplete has used
up the stream. -/
def readGlobal (junk : Nat → Bytes) (p : PSBT) (br : Nat) (s : PStream) : PSBT × Nat × PStream :=
  if br + p.bytesParsed = p.lastKeyPos then
    let (p, br, s) := p.parseKey br s
    let (p, br, s) := p.parseValue br s
    globalKey junk p br s
  else globalKey junk p br s

/-- PSBT.cpp:88-249 `from_stream`: new object, return value, rest of the stream. -/
def fromStream (junk : Nat → Bytes) (p : PSBT) (s : PStream) : PSBT × Nat × PStream :=
  if p.status = .failed ∨ p.status = .ub then (p, 0, s)
  else if p.status = .done ∧ p.release = .ub then ({ p with status := .ub }, 0, s)
  else
    let p := p.start
    match readMagic (magic.drop p.bytesParsed) 0 s with
    | (false, br, s) => p.finish .failed br s
    | (true, br, s) => readGlobal junk p br s

/-! ### Serialization -/

/-- PSBT.cpp:480-482: `while(s->available() && bytes_written+offset < hi) bytes_written += s->serialize(&tx, offset+bytes_written-lo);`.
A round that writes nothing would be repeated forever. -/
def emitTx (t : Tx) (lo offset : Nat) : Nat → Ser → C Ser
  | 0, s => .ok s
  | fuel + 1, s =>
    if s.avail ∧ s.out.length + offset < lo + t.length then do
      let s' ← s.emitObj t.toStream lo (lo + t.length) offset
      if s'.out.length = s.out.length then .ub else emitTx t lo offset fuel s'
    else .ok s

/-- PSBT.cpp:494-497, 504-507: `while(s->available() && bytes_written+offset-cur < n){ s->write(arr[bytes_written+offset-cur]); bytes_written++; }`:
before `cur` the difference wraps around and nothing is written.  `extra` is `bytes_written` minus the number of bytes in `s.out`. -/
def emitRel (s : Ser) (extra : Nat) (arr : Bytes) (cur n offset : Nat) : C Ser :=
  if s.out.length + extra + offset < cur then .ok s
  else s.emit arr cur (cur + n) (extra + offset)

/-- PSBT.cpp:489-509: one partial signature; new stream and `cur`. -/
def emitSig (s : Ser) (extra : Nat) (g : PartialSig) (cur offset : Nat) : C (Ser × Nat) := do
  let (kl, kb) ← serialize g.pubkey.toStream 65 0 .raw
  let ka := UInt8.ofNat (1 + kl) :: 0x02 :: kb
  let s ← emitRel s extra ka cur (1 + kl + 1) offset
  let cur := cur + (1 + kl + 1)
  let (vl, vb) ← serialize g.signature.toStream 98 0 .raw
  let va ← store (UInt8.ofNat (1 + vl) :: vb ++ [0]) (1 + vl) [0x01]
  let s ← emitRel s extra va cur (1 + vl + 1) offset
  return (s, cur + (1 + vl + 1))

/-- PSBT.cpp:488-510: the partial signatures of an input. -/
def emitSigs (s : Ser) (extra : Nat) (offset : Nat) : List PartialSig → Nat → C (Ser × Nat)
  | [], cur => .ok (s, cur)
  | g :: gs, cur => do
    let (s, cur) ← emitSig s extra g cur offset
    emitSigs s extra offset gs cur

/-- PSBT.cpp:487-510: the pairs of section `sec`. -/
def emitPairs (p : PSBT) (s : Ser) (extra offset sec cur : Nat) : C (Ser × Nat) :=
  if 0 < sec ∧ sec < p.tx.txIns.length + 1 then
    match p.ins[sec - 1]? with
    | none => .ub
    | some m => emitSigs s extra offset m.signatures cur
  else .ok (s, cur)

/-- PSBT.cpp:486-515: the sections from number `sec` on, `n` of them; the delimiters are written without looking at `offset`, and counted
without looking at `available()`. -/
def emitSections (p : PSBT) (offset : Nat) : Nat → Nat → Ser → Nat → Nat → C (Ser × Nat)
  | 0, _, s, extra, _ => .ok (s, extra)
  | n + 1, sec, s, extra, cur =>
    if s.avail then do
      let (s, cur) ← p.emitPairs s extra offset sec cur
      if s.avail then emitSections p offset n (sec + 1) (s.push [0]) extra (cur + 1)
      else emitSections p offset n (sec + 1) s (extra + 1) (cur + 1)
    else .ok (s, extra)

/-- PSBT.cpp:464-516 `to_stream`: the bytes written, and the return value. -/
def toStream (p : PSBT) (cap : Option Nat) (offset : Nat) : C (Bytes × Nat) := do
  let s : Ser := ⟨cap, []⟩
  let s ← s.emit (magic ++ [0x01, 0x00]) 0 7 offset
  let (l, arr) ← writeVarInt (UInt64.ofNat p.tx.length) (zeros 10)
  let s ← s.emit arr 7 (7 + l) offset
  let s ← emitTx p.tx (7 + l) offset p.tx.length s
  let sections := UInt8.ofNat (1 + p.tx.txIns.length + p.tx.txOuts.length)
  let (s, extra) ← emitSections p offset sections.toNat 0 s 0 (7 + l + p.tx.length)
  return (s.out, s.out.length + extra)

/-- PSBT.cpp:518-528 `length`. -/
def length (p : PSBT) : C Nat :=
  if p.ins.length < p.tx.txIns.length then .ub
  else
    let sections := UInt8.ofNat (1 + p.tx.txIns.length + p.tx.txOuts.length)
    .ok (7 + lenVarIntN p.tx.length + p.tx.length + sections.toNat
      + ((p.ins.take p.tx.txIns.length).map fun m => (m.signatures.map fun g => 2 + g.pubkey.length + (2 + g.signature.length)).sum).sum)

/-! ### Amounts -/

/-- PSBT.cpp:697-702: the first loop of `fee`; `none`: return 0. -/
def sumInputs : List TxIn → List InMeta → UInt64 → C (Option UInt64)
  | [], _, acc => .ok (some acc)
  | _ :: _, [], _ => .ub
  | _ :: is, m :: ms, acc => if m.txOut.amount = 0 then .ok none else sumInputs is ms (acc + m.txOut.amount)

/-- PSBT.cpp:694-710 `fee`. -/
def fee (p : PSBT) : C UInt64 := do
  match ← sumInputs p.tx.txIns p.ins 0 with
  | none => return 0
  | some a =>
    let b := p.tx.txOuts.foldl (fun acc o => acc + o.amount) 0
    return if b > a then 0 else a - b

/-! ### Signing -/

/-- Random numbers and uninitialised memory used by one call of `sign`: in the derivation of the account key, in the derivation of the key
for derivation `j` of input `i`, in its signature, and in `add`. -/
structure SignEnv where
  account : Nat → BN
  key : Nat → Nat → Nat → BN
  sig : Nat → Nat → Nat → BN × BN
  junk : Nat → Nat → Bytes

/-- PSBT.cpp:637-655: the digest signed for input `i` with metadata `m` and the key `pk`. -/
def digest (p : PSBT) (i : Nat) (m : InMeta) (pk : PrivKey) : C Bytes :=
  let own : C Script := do
    let (l, b) ← pk.pubKey.sec 65
    return Script.ofKey (b.take l) .p2pkh
  if m.witnessScript.length > 1 then p.tx.sigHashSegwit (UInt8.ofNat i) m.witnessScript m.txOut.amount 1
  else if m.redeemScript.length > 1 then
    if m.redeemScript.type = .p2wpkh then do p.tx.sigHashSegwit (UInt8.ofNat i) (← own) m.txOut.amount 1
    else p.tx.sigHash (UInt8.ofNat i) m.redeemScript 1
  else if m.txOut.scriptPubkey.type = .p2wpkh then do p.tx.sigHashSegwit (UInt8.ofNat i) (← own) m.txOut.amount 1
  else p.tx.sigHash (UInt8.ofNat i) m.txOut.scriptPubkey 1

/-- PSBT.cpp:656-673: sign the digest and add the partial signature (the result of `add` is ignored). -/
def signOne (p : PSBT) (junk : Bytes) (rnd : Nat → BN × BN) (i : Nat) (m : InMeta) (pk : PrivKey) : C PSBT := do
  let h ← p.digest i m pk
  let sig ← pk.sign h rnd
  let (kl, kb) ← serialize pk.pubKey.toStream 65 0 .raw
  let k := (({} : Script).fromStream { bytes := UInt8.ofNat (1 + kl) :: 0x02 :: kb.take kl }).1
  let (vl, vb) ← serialize sig.toStream 99 0 .raw
  let v := (({} : Script).fromStream { bytes := UInt8.ofNat (1 + vl) :: (vb.take vl ++ [0x01]) }).1
  if k.status = .ub ∨ v.status = .ub then .ub
  else do
    let (_, q) ← p.add junk (UInt8.ofNat (i + 1)) k v
    return q

/-- State of the loop in `sign`: the object, the cached hardened prefix with its key, and the counter. -/
structure SignState where
  p : PSBT
  cache : Option (List UInt32 × HDPriv) := none
  counter : UInt8 := 0

/-- PSBT.cpp:613-626: the cached hardened prefix with its key; made from the first path for which it is needed. -/
def accountKey (root : HDPriv) (env : SignEnv) (path : List UInt32) : Option (List UInt32 × HDPriv) → C (List UInt32 × HDPriv)
  | some c => .ok c
  | none => do
    let pre := path.takeWhile (fun k => decide (k ≥ hardenedIndex))
    let account ← root.derive env.account pre
    return (pre, account)

/-- PSBT.cpp:629-633: the key for the path `path`.  `memcmp` with the cached prefix reads outside the path if that is shorter. -/
def pathKey (root : HDPriv) (rnd : Nat → BN) (path : List UInt32) (pre : List UInt32) (account : HDPriv) : C HDPriv :=
  if path.length < pre.length then .ub
  else if path.take pre.length = pre then account.derive rnd (path.drop pre.length)
  else root.derive rnd path

/-- PSBT.cpp:613-633: the key for the path `path`, and the new cache. -/
def signKey (root : HDPriv) (env : SignEnv) (i j : Nat) (path : List UInt32) (cache : Option (List UInt32 × HDPriv)) :
    C (HDPriv × (List UInt32 × HDPriv)) := do
  let (pre, account) ← accountKey root env path cache
  let pk ← pathKey root (env.key i j) path pre account
  return (pk, (pre, account))

/-- PSBT.cpp:611-676: one round of the inner loop, for derivation `j` of input `i`. -/
def signStep (root : HDPriv) (fp : Bytes) (env : SignEnv) (i j : Nat) (st : SignState) (d : Derivation) : C SignState :=
  if !d.ready then .ub
  else if fp ≠ d.fingerprint then .ok st
  else do
    let (pk, cache) ← signKey root env i j d.path st.cache
    let st := { st with cache := some cache }
    if d.pubkey.eq pk.pubKey then
      match st.p.ins[i]? with
      | none => .ub
      | some m => do
        let q ← st.p.signOne (env.junk i j) (env.sig i j) i m pk.toPriv
        return { st with p := q, counter := st.counter + 1 }
    else return st

/-- PSBT.cpp:610-678: the inner loop over the derivations of input `i`; `ds` are the remaining ones, from number `j`. -/
def signInputLoop (root : HDPriv) (fp : Bytes) (env : SignEnv) (i : Nat) : List Derivation → Nat → SignState → C SignState
  | [], _, st => .ok st
  | d :: ds, j, st => do
    let st ← signStep root fp env i j st d
    signInputLoop root fp env i ds (j + 1) st

/-- PSBT.cpp:609-679: the loop over the inputs from number `i`, `n` of them. -/
def signLoop (root : HDPriv) (fp : Bytes) (env : SignEnv) : Nat → Nat → SignState → C SignState
  | 0, _, st => .ok st
  | n + 1, i, st =>
    match st.p.ins[i]? with
    | none => .ub
    | some m => do
      let st ← signInputLoop root fp env i m.derivations 0 st
      signLoop root fp env n (i + 1) st

/-- PSBT.cpp:602-681 `sign`: new object and return value. -/
def sign (p : PSBT) (root : HDPriv) (env : SignEnv) : C (PSBT × UInt8) := do
  let fp ← root.fingerprint
  let st ← signLoop root fp env p.tx.txIns.length 0 { p := p }
  return (st.p, st.counter)

/-! ### Ownership -/

/-- PSBT.cpp:712-724 `isMine(outputNumber, HDPublicKey)`: an output number past the end, or an uninitialised derivation, is undefined. -/
def isMinePub (p : PSBT) (n : UInt8) (xpub : HDPub) (rnd : Nat → Nat → BN) : C Bool :=
  match p.outs[n.toNat]? with
  | none => .ub
  | some m => m.derivations.zipIdx.foldlM (fun (mine : Bool) (d : Derivation × Nat) => do
      if !d.1.ready then .ub
      else do
        let pub ← xpub.derive (rnd d.2) d.1.path
        return mine || pub.key.point == d.1.pubkey.point) false

/-- PSBT.cpp:726-738 `isMine(outputNumber, HDPrivateKey)`. -/
def isMinePriv (p : PSBT) (n : UInt8) (xprv : HDPriv) (rnd : Nat → Nat → BN) : C Bool :=
  match p.outs[n.toNat]? with
  | none => .ub
  | some m => m.derivations.zipIdx.foldlM (fun (mine : Bool) (d : Derivation × Nat) => do
      if !d.1.ready then .ub
      else do
        let k ← xprv.derive (rnd d.2) d.1.path
        return mine || k.xpub.key.point == d.1.pubkey.point) false

end PSBT

end UB
