import Verif.Model.TxSign
import Verif.Model.HDWallet

/-
Model of src/Electrum.h and src/Electrum.cpp: unsigned transactions of the Electrum wallet.  Memory management (destruction; for copies see Model/Copy) is not
modelled.
-/

namespace UB

/-- Electrum.h:10-14 `ElectrumInputMetadata`; `none` is a member that has not been initialised. -/
structure ElectrumMeta where
  hd : HDPub := {}
  derivation : Option (UInt16 × UInt16) := none
  amount : Option UInt64 := none

/-- Electrum.h:21-47 `class ElectrumTx`; `metas = []` also stands for a null pointer. -/
structure ElectrumTx where
  status : Status := .done
  bytesParsed : Nat := 0
  isSegwit : Bool := false
  tx : Tx := {}
  metas : List ElectrumMeta := []

/-- Bitcoin.h:40-52: the script type stored for an extended key, as used by `signSegwitInput`, which only asks whether it is nested. -/
def HDType.scriptType : HDType → ScriptType
  | .unknown => .unknown
  | .p2pkh => .p2pkh
  | .p2sh => .p2sh
  | .p2wpkh => .p2wpkh
  | .p2wsh => .p2wsh
  | .p2sh_p2wpkh => .p2sh_p2wpkh
  | .p2sh_p2wsh => .p2sh_p2wsh
  | .directScript | .multisig => .unknown

namespace ElectrumTx

/-- Electrum.cpp:43. -/
def magic : Bytes := [0x45, 0x50, 0x54, 0x46, 0xff, 0x00]

/-- Electrum.cpp:32-41: the state in which a call of `from_stream` starts reading. -/
def start (e : ElectrumTx) : ElectrumTx :=
  let e := if e.status = .done then { e with bytesParsed := 0, isSegwit := false, tx := {}, metas := [] } else e
  { e with status := .incomplete }

/-- Electrum.cpp:44-52: compare with the rest of the magic bytes: whether there was no mismatch, number of bytes read, stream. -/
def readMagic : Bytes → PStream → Bool × Nat × PStream
  | [], s => (true, 0, s)
  | c :: cs, s =>
    if s.avail then
      let (b, s) := s.readByte
      if b = c then
        let (ok, n, s) := readMagic cs s
        (ok, n + 1, s)
      else (false, 1, s)
    else (true, 0, s)

/-- Electrum.cpp:60-76: one round of the loop over the inputs: metadata from the script of the input; `none` stops with `PARSING_FAILED`. -/
def legacyMeta (junk : Bytes) (i : TxIn) : C (Option (TxIn × ElectrumMeta)) :=
  if i.scriptSig.length ≠ 88 then .ok none
  else do
    let (_, arr) ← serialize i.scriptSig.toStream 88 0 .raw
    let hd := (({} : HDPub).fromStream junk { bytes := arr.drop 6 }).1
    if hd.key.status = .ub then .ub
    else if hd.key.status ≠ .done then .ok none
    else
      let d0 := UInt16.ofNat ((arr.getD 84 0).toNat + (arr.getD 85 0).toNat * 256)
      let d1 := UInt16.ofNat ((arr.getD 86 0).toNat + (arr.getD 87 0).toNat * 256)
      .ok (some ({ i with scriptSig := i.scriptSig.assign {} }, { hd := hd, derivation := some (d0, d1) }))

/-- Electrum.cpp:58-77: the loop; the inputs and metadata, and whether it ended regularly.  The inputs and metadata behind the one that fails stay as
they were. -/
def legacyMetas (junk : Bytes) : List TxIn → C (List TxIn × List ElectrumMeta × Bool)
  | [] => .ok ([], [], true)
  | i :: is => do
    match ← legacyMeta junk i with
    | none => return (i :: is, (i :: is).map fun _ => {}, false)
    | some (i, m) =>
      let (is, ms, ok) ← legacyMetas junk is
      return (i :: is, m :: ms, ok)

/-- `status = st; bytes_parsed += bytes_read; return bytes_read;` -/
def stop (e : ElectrumTx) (st : Status) (br : Nat) (s : PStream) : ElectrumTx × Nat × PStream :=
  ({ e with status := st, bytesParsed := e.bytesParsed + br }, br, s)

/-- Electrum.cpp:81-93: the transaction did not parse because of its first witness: it is taken for a segwit transaction of Electrum. -/
def segwitStart (e : ElectrumTx) : ElectrumTx :=
  { e with
    tx := { e.tx with txIns := e.tx.txIns.map fun i => { i with witness := i.witness.assign {} }, status := .done, locktime := 0 }
    isSegwit := true
    metas := e.tx.txIns.map fun _ => { derivation := some (0, 0), amount := some 0 } }

/-- Electrum.cpp:119-121: `while(s->available() && bytes_parsed+bytes_read < start + 78) bytes_read += s->parse(&hd);` in at most `fuel` rounds; `none`: the
loop is still running. -/
def readHd (junk : Bytes) (limit : Nat) : Nat → HDPub → Nat → PStream → Option (HDPub × Nat × PStream)
  | 0, _, _, _ => none
  | fuel + 1, hd, pos, s =>
    if s.avail ∧ pos < limit ∧ hd.key.status ≠ .ub then
      let (hd, n, s) := hd.fromStream junk s
      readHd junk limit fuel hd (pos + n) s
    else some (hd, pos, s)

/-- `derivation[cur/2] += (c << (8 * (cur % 2)))` for the bytes from `cur` on. -/
def addDerivation (d : UInt16 × UInt16) (cur : Nat) : Bytes → UInt16 × UInt16
  | [] => d
  | c :: cs =>
    let v := UInt16.ofNat (c.toNat * 256 ^ (cur % 2))
    addDerivation (if cur / 2 = 0 then (d.1 + v, d.2) else (d.1, d.2 + v)) (cur + 1) cs

/-- `amount += (((uint64_t)c) << (8*i))` for the bytes from `i` on. -/
def addAmount (a : UInt64) (i : Nat) : Bytes → UInt64
  | [] => a
  | c :: cs => addAmount (a + UInt64.ofNat (c.toNat * 256 ^ i)) (i + 1) cs

/-- Electrum.cpp:103-129: the metadata of one input, which takes the 102 bytes from position `start` on; `pos` is `bytes_parsed+bytes_read`. -/
def readMeta (junk : Bytes) (fuel start : Nat) (m : ElectrumMeta) (pos : Nat) (s : PStream) : Option (ElectrumMeta × Nat × PStream) := do
  let (b, s) := s.readN (start + 5 - pos)
  let pos := pos + b.length
  let (a, s) := s.readN (start + 13 - pos)
  let m := { m with amount := m.amount.map fun v => addAmount v (pos - (start + 5)) a }
  let pos := pos + a.length
  let (b, s) := s.readN (start + 20 - pos)
  let pos := pos + b.length
  let (hd, pos, s) ← readHd junk (start + 98) fuel m.hd pos s
  let (d, s) := s.readN (start + 102 - pos)
  let m := { m with hd := hd, derivation := m.derivation.map fun v => addDerivation v (pos - (start + 98)) d }
  return (m, pos + d.length, s)

/-- Electrum.cpp:102-130: the loop over the inputs. -/
def readMetas (junk : Bytes) (fuel : Nat) : Nat → List ElectrumMeta → Nat → PStream → Option (List ElectrumMeta × Nat × PStream)
  | _, [], pos, s => some ([], pos, s)
  | start, m :: ms, pos, s => do
    let (m, pos, s) ← readMeta junk fuel start m pos s
    let (ms, pos, s) ← readMetas junk fuel (start + 102) ms pos s
    return (m :: ms, pos, s)

/-- Electrum.cpp:100-142: metadata and locktime of a segwit transaction. -/
def readSegwit (junk : Bytes) (fuel : Nat) (e : ElectrumTx) (br : Nat) (s : PStream) : Option (ElectrumTx × Nat × PStream) :=
  if e.isSegwit ∧ e.tx.status = .done then do
    let first := 6 + e.tx.length + 2 - 4
    let (ms, pos, s) ← readMetas junk fuel first e.metas (e.bytesParsed + br) s
    let lock := first + 102 * e.metas.length
    let (l, s) := s.readN (lock + 4 - pos)
    let e := { e with metas := ms, tx := { e.tx with locktime := accLE e.tx.locktime (pos - lock) l } }
    let pos := pos + l.length
    if ms.any (fun m => m.hd.key.status = .ub) then return e.stop .ub (pos - e.bytesParsed) s
    else return e.stop (if pos = lock + 4 then .done else e.status) (pos - e.bytesParsed) s
  else some (e.stop e.status br s)

/-- Electrum.cpp:80-142. -/
def afterTx (junk : Bytes) (fuel : Nat) (e : ElectrumTx) (br : Nat) (s : PStream) : Option (ElectrumTx × Nat × PStream) :=
  if e.tx.status = .failed then
    match e.tx.txIns with
    | i :: _ => if i.witness.status = .failed then readSegwit junk fuel e.segwitStart br s else some (e.stop .failed br s)
    | [] => some (e.stop .failed br s)
  else readSegwit junk fuel e br s

/-- Electrum.cpp:53-142: the transaction, and what is behind it. -/
def readTx (junk : Bytes) (fuel : Nat) (e : ElectrumTx) (br : Nat) (s : PStream) : Option (ElectrumTx × Nat × PStream) :=
  if e.isSegwit = false ∧ s.avail ∧ e.tx.status ≠ .failed then
    let (t, n, s) := e.tx.fromStream s
    let e := { e with tx := t }
    let br := br + n
    if t.status = .ub then some (e.stop .ub br s)
    else if t.status = .done then
      match legacyMetas junk t.txIns with
      | .ub => some (e.stop .ub br s)
      | .ok (ins, ms, ok) =>
        let e := { e with tx := { t with txIns := ins }, metas := ms, status := .done }
        if ok then afterTx junk fuel e br s else some (e.stop .failed br s)
    else afterTx junk fuel e br s
  else afterTx junk fuel e br s

/-- Electrum.cpp:28-143 `from_stream`: object, return value and stream; `none`: the loop that reads extended keys is still running after `fuel`
rounds. -/
def fromStream (junk : Bytes) (fuel : Nat) (e : ElectrumTx) (s : PStream) : Option (ElectrumTx × Nat × PStream) :=
  if e.status = .failed ∨ e.status = .ub then some (e, 0, s)
  else
    let e := e.start
    let (ok, br, s) := readMagic (magic.drop e.bytesParsed) s
    if ok then readTx junk fuel e br s else some (e.stop .failed br s)

/-- Random numbers used by one call of `sign`, for the input with the given number: in the two derivations and in the signature. -/
structure SignEnv where
  child : Nat → BN
  grandchild : Nat → BN
  sig : Nat → Nat → BN × BN

/-- Electrum.cpp:150-161: one round of the loop in `sign`: transaction and counter. -/
def signStep (account : HDPriv) (env : SignEnv) (i : Nat) (m : ElectrumMeta) (t : Tx) (res : UInt8) : C (Tx × UInt8) :=
  let type := m.hd.head.type
  if account.xpub.key.eq m.hd.key then
    match m.derivation with
    | none => .ub
    | some (d0, d1) => do
      let c ← account.child d0.toUInt32 false (env.child i)
      let pk ← c.child d1.toUInt32 false (env.grandchild i)
      if type = .p2pkh ∨ type = .p2sh ∨ type = .unknown ∨ type = .directScript then do
        let (t, _) ← t.signInputKey (UInt8.ofNat i) pk.toPriv (env.sig i)
        return (t, res + 1)
      else
        match m.amount with
        | none => .ub
        | some a => do
          let (t, _) ← t.signSegwitInputKey (UInt8.ofNat i) pk.toPriv a type.scriptType (env.sig i)
          return (t, res + 1)
  else .ok (t, res)

/-- Electrum.cpp:149-162: the loop, for `n` inputs from number `i` on. -/
def signLoop (account : HDPriv) (env : SignEnv) (ms : List ElectrumMeta) : Nat → Nat → Tx → UInt8 → C (Tx × UInt8)
  | 0, _, t, res => .ok (t, res)
  | n + 1, i, t, res =>
    match ms[i]? with
    | none => .ub
    | some m => do
      let (t, res) ← signStep account env i m t res
      signLoop account env ms n (i + 1) t res

/-- Electrum.cpp:147-164 `sign`: object and return value. -/
def sign (e : ElectrumTx) (account : HDPriv) (env : SignEnv) : C (ElectrumTx × UInt8) := do
  let (t, n) ← signLoop account env e.metas e.tx.txIns.length 0 e.tx 0
  return ({ e with tx := t }, n)

/-- Electrum.cpp:167-173: the sum of the amounts of `n` inputs; `none`: an amount is 0. -/
def inputSum : Nat → List ElectrumMeta → UInt64 → C (Option UInt64)
  | 0, _, acc => .ok (some acc)
  | _ + 1, [], _ => .ub
  | n + 1, m :: ms, acc =>
    match m.amount with
    | none => .ub
    | some a => if a = 0 then .ok none else inputSum n ms (acc + a)

/-- Electrum.cpp:166-182 `fee`. -/
def fee (e : ElectrumTx) : C UInt64 := do
  match ← inputSum e.tx.txIns.length e.metas 0 with
  | none => return 0
  | some ins =>
    let outs := e.tx.txOuts.foldl (fun a o => a + o.amount) 0
    return if ins < outs then 0 else ins - outs

end ElectrumTx
end UB
