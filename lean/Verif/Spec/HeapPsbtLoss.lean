import Verif.Model.PSBT
import Verif.Model.Copy

/-! # Memory that PSBT objects never give back

At most so many blocks are left behind by parsing, copying and assigning: arrays without elements, which no destructor deletes, and the two
buffers of `add` where it returns before `free`. -/

namespace UB

/-- Arrays without elements that copying a transaction creates. -/
def Tx.emptyArrays (v : Tx) : Nat := (if v.txIns = [] then 1 else 0) + (if v.txOuts = [] then 1 else 0)

/-- The counts read so far that were 0. -/
def Tx.zeroCounts (v : Tx) : Nat :=
  (if v.txIns = [] ∧ 0 < v.segwitFlag ∧ 6 < v.bytesParsed then 1 else 0) + if v.txOuts = [] ∧ v.outOffset < v.bytesParsed then 1 else 0

/-- Blocks without elements, for paths without elements. -/
def Derivation.hollow (d : Derivation) : Nat := if d.ready = true ∧ d.path = [] then 1 else 0

/-- Blocks without elements that copying an array makes. -/
def Derivation.hollows (ds : List Derivation) : Nat := (if ds = [] then 1 else 0) + (ds.map Derivation.hollow).sum

/-- Blocks without elements for the entries that have been added. -/
def Derivation.added (ds es : List Derivation) : Nat := ((es.drop ds.length).map Derivation.hollow).sum

/-- Blocks without elements that the copy constructor makes for an input. -/
def InMeta.hollows (v : InMeta) : Nat := Derivation.hollows v.derivations + if v.signatures = [] then 1 else 0

/-- Blocks without elements that the assignment makes for an input. -/
def InMeta.hollowPaths (v : InMeta) : Nat := (v.derivations.map Derivation.hollow).sum

/-- The transaction that the value of a pair with code 0 contains. -/
def prevTx (va : Bytes) : Tx := (({} : Tx).fromStream { bytes := va.drop (dataPos va) }).1

/-- Blocks without elements that adding a pair to an input makes. -/
def InMeta.losses (v v' : InMeta) (code : UInt8) (ka va : Bytes) : Nat :=
  (if code = 0 ∧ ka.length = 2 then (prevTx va).zeroCounts else 0) + Derivation.added v.derivations v'.derivations

/-- The buffers are given back. -/
def HOutMeta.frees (code : UInt8) (ka : Bytes) : Bool := !decide ((code = 0 ∨ code = 1) ∧ ka.length ≠ 2)

namespace PSBT

/-- Blocks without elements that the copy constructor makes, and which nothing gives back. -/
def copyLoss (v : PSBT) : Nat :=
  v.tx.emptyArrays + (if v.ins = [] then 1 else 0) + (if v.outs = [] then 1 else 0) + (v.ins.map InMeta.hollows).sum
    + (v.outs.map fun m => Derivation.hollows m.derivations).sum

/-- The same for the assignment. -/
def assignLoss (v : PSBT) : Nat :=
  v.tx.emptyArrays + (v.ins.map InMeta.hollowPaths).sum + (v.outs.map fun m => Derivation.hollows m.derivations).sum

/-- Blocks that adding the pair `k`, `v` leaves behind: those without elements, and the two buffers where the function returns without giving them back. -/
def addLoss (p : PSBT) (junk : Bytes) (sec : UInt8) (k v : Script) : Nat :=
  if sec = 0 ∨ sec.toNat > 1 + p.tx.txIns.length + p.tx.txOuts.length then 0
  else match k.ser, v.ser with
    | .ok ka, .ok va =>
      match peek ka (dataPos ka) with
      | .ub => 0
      | .ok code =>
        if sec.toNat < 1 + p.tx.txIns.length then
          match p.ins[sec.toNat - 1]?, p.tx.txIns[sec.toNat - 1]? with
          | some m, some i =>
            match m.add junk i code ka va with
            | .ok (_, m') => m.losses m' code ka va
            | .ub => 0
          | _, _ => 0
        else
          match p.outs[sec.toNat - 1 - p.tx.txIns.length]? with
          | some m =>
            match m.add junk code ka va with
            | .ok (_, m') => Derivation.added m.derivations m'.derivations + (if HOutMeta.frees code ka then 0 else 2)
            | .ub => 0
          | none => 0
    | _, _ => 0

/-- Blocks that one pair leaves behind. -/
def roundAddLoss (p : PSBT) (junk : Bytes) : Nat :=
  if p.key.status = .done ∧ p.value.status = .done then p.addLoss junk p.sec p.key p.value else 0

def roundRetryLoss (p : PSBT) (junk : Bytes) (br : Nat) (s : PStream) : Nat :=
  if p.key.status = .failed ∨ p.value.status = .failed then 0
  else
    let (p, br, s) := if p.key.status = .incomplete then p.parseKey br s else (p, br, s)
    let (p, _, _) := if p.value.status = .incomplete then p.parseValue br s else (p, br, s)
    p.roundAddLoss junk

def roundLoss (p : PSBT) (junk : Bytes) (br : Nat) (s : PStream) : Nat :=
  let (p, br, s) := if p.key.status = .done ∧ p.value.status = .done then p.parseKey br s else (p, br, s)
  if p.key.status = .done ∧ p.key.length = 1 then 0
  else
    let (p, br, s) := if p.key.status = .done then p.parseValue br s else (p, br, s)
    p.roundRetryLoss junk br s

/-- Blocks that the pairs of the inputs and outputs leave behind. -/
def loopLoss (junk : Nat → Bytes) : Nat → PSBT → Nat → PStream → Nat
  | 0, _, _, _ => 0
  | fuel + 1, p, br, s =>
    if s.avail ∧ p.sec < p.sections then
      p.roundLoss (junk p.lastKeyPos) br s +
        match p.round (junk p.lastKeyPos) br s with
        | (_, true) => 0
        | ((p, br, s), false) => loopLoss junk fuel p br s
    else 0

/-- The transaction in the value of the first pair. -/
def globalTx (p : PSBT) : Tx :=
  match p.value.ser with
  | .ok va => (p.tx.fromStream { bytes := va.drop (dataPos va) }).1
  | .ub => {}

/-- Blocks without elements that are made for the transaction and the metadata. -/
def readTxLoss (p : PSBT) : Nat :=
  if p.key.ser = .ok [1, 0] then
    p.globalTx.zeroCounts +
      (if p.globalTx.status = .done then (if p.globalTx.txIns = [] then 1 else 0) + (if p.globalTx.txOuts = [] then 1 else 0) else 0)
  else 0

def afterGlobalLoss (junk : Nat → Bytes) (p : PSBT) (br : Nat) (s : PStream) : Nat :=
  if p.lastKeyPos = 5 ∧ p.value.status = .done ∧ p.key.status = .done then
    match p.readTx with
    | .ub => 0
    | .ok q => p.readTxLoss + (if q.status = .failed then 0 else loopLoss junk (2 * s.bytes.length + 2) q br s)
  else if 5 < p.lastKeyPos then loopLoss junk (2 * s.bytes.length + 2) p br s else 0

def globalValueLoss (junk : Nat → Bytes) (p : PSBT) (br : Nat) (s : PStream) : Nat :=
  let (p, br, s) := if s.avail ∧ p.value.status = .incomplete then p.parseValue br s else (p, br, s)
  if p.value.status = .failed then 0 else afterGlobalLoss junk p br s

def globalKeyLoss (junk : Nat → Bytes) (p : PSBT) (br : Nat) (s : PStream) : Nat :=
  let (p, br, s) := if s.avail ∧ p.key.status = .incomplete then p.parseKey br s else (p, br, s)
  if p.key.status = .failed then 0 else globalValueLoss junk p br s

def readGlobalLoss (junk : Nat → Bytes) (p : PSBT) (br : Nat) (s : PStream) : Nat :=
  if br + p.bytesParsed = p.lastKeyPos then
    let (p, br, s) := p.parseKey br s
    let (p, br, s) := p.parseValue br s
    globalKeyLoss junk p br s
  else globalKeyLoss junk p br s

/-- Blocks that a call of `from_stream` leaves behind. -/
def parseLoss (junk : Nat → Bytes) (p : PSBT) (s : PStream) : Nat :=
  if p.status = .failed ∨ p.status = .ub then 0
  else match readMagic (magic.drop p.start.bytesParsed) 0 s with
    | (false, _, _) => 0
    | (true, br, s) => readGlobalLoss junk p.start br s

end PSBT

end UB
