import Verif.Model.PSBT

/-
The global variable `ubtc_errno` (Bitcoin.cpp:21): the values written to it, in order, while a transaction or a PSBT is parsed.  The definitions follow
the control flow of the parsers in Model/Transaction and Model/PSBT, which leave the variable out.  Writes before undefined behaviour are not recorded in all cases.
-/

namespace UB.Errno

/-! ### Codes -/

/-- Transaction.cpp:13-16. -/
def txGlobal : Nat := 1
def txInput : Nat := 2
def txOutput : Nat := 3
def txScript : Nat := 4

/-- PSBT.cpp:8-14. -/
def psbtMagic : Nat := 1
def psbtScope : Nat := 2
def psbtKey : Nat := 3
def psbtValue : Nat := 4
def psbtTx : Nat := 5
def psbtIn : Nat := 6
def psbtOut : Nat := 7

/-- The value of the variable after some writes: the last of them, or the old value. -/
def after (old : Nat) (ws : List Nat) : Nat := ws.getLast?.getD old

/-! ### Transactions -/

/-- Transaction.cpp:72-115, line 101. -/
def txIn (t : TxIn) (s : PStream) : List Nat :=
  if t.status = .failed ∨ t.status = .ub then []
  else
    let (t, br, s) := t.start.readHead s
    let (t, _, _) := t.readScript br s
    if t.scriptSig.status = .failed then [txScript ||| txInput] else []

/-- Transaction.cpp:145-180, line 171. -/
def txOut (t : TxOut) (s : PStream) : List Nat :=
  if t.status = .failed ∨ t.status = .ub then []
  else
    let (t, br, s) := t.start.readHead s
    let (t, _, _) := t.readScript br s
    if t.scriptPubkey.status = .failed then [txScript ||| txOutput] else []

/-- Transaction.cpp:378-380, 396-398, 418-420: `for(...) bytes_read += s->parse(&x[i]);`, where `parse` writes `w`. -/
def parseAll {α : Type} (f : α → PStream → α × Nat × PStream) (w : α → PStream → List Nat) : List α → PStream → List Nat
  | [], _ => []
  | x :: xs, s => w x s ++ parseAll f w xs (f x s).2.2

/-- Transaction.cpp:400-409, 422-431, 442-452: the loops over incomplete parts; at a failed one `own` is written. -/
def contLoop {α : Type} (f : α → PStream → α × Nat × PStream) (st : α → Status) (w : α → PStream → List Nat) (own : List Nat) : List α → PStream → List Nat
  | [], _ => []
  | x :: xs, s =>
    let e := if s.avail ∧ st x = .incomplete then w x s else []
    let (x, _, s) := if s.avail ∧ st x = .incomplete then f x s else (x, 0, s)
    if st x = .failed then e ++ own
    else if st x = .ub then e
    else e ++ contLoop f st w own xs s

/-- Transaction.cpp:365-382. -/
def version (t : Tx) (s : PStream) : List Nat :=
  let (v, s) := s.readN (4 - t.bytesParsed)
  if s.avail ∧ v.length + t.bytesParsed = 4 then
    let (c, s) := s.readByte
    if c = 0 then [] else parseAll TxIn.fromStream txIn (List.replicate c.toNat {}) s
  else []

/-- Transaction.cpp:392-399. -/
def segwitCount (t : Tx) (br : Nat) (s : PStream) : List Nat :=
  if s.avail ∧ t.segwitFlag > 0 ∧ br + t.bytesParsed = 6 then
    let (c, s) := s.readByte
    parseAll TxIn.fromStream txIn (List.replicate c.toNat {}) s
  else []

/-- Transaction.cpp:414-421. -/
def outCount (t : Tx) (br : Nat) (s : PStream) : List Nat :=
  if s.avail ∧ br + t.bytesParsed = t.outOffset then
    let (c, s) := s.readByte
    parseAll TxOut.fromStream txOut (List.replicate c.toNat {}) s
  else []

/-- Transaction.cpp:436-456, line 448. -/
def witnesses (t : Tx) (br : Nat) (s : PStream) : List Nat :=
  if t.segwitFlag > 0 then
    let (ins, _, s) := if br + t.bytesParsed = t.witOffset then Tx.parseAll Tx.parseWitness t.txIns s else (t.txIns, 0, s)
    contLoop Tx.parseWitness (·.witness.status) (fun _ _ => []) [txGlobal ||| txScript] ins s
  else []

/-- Transaction.cpp:410-485. -/
def outs (t : Tx) (br : Nat) (s : PStream) : List Nat :=
  let e := outCount t br s
  let (t, br, s) := t.readOutCount br s
  let e' := contLoop TxOut.fromStream (·.status) txOut [] t.txOuts s
  let (outs, m, s, r) := Tx.contAll TxOut.fromStream (·.status) t.txOuts s
  match r with
  | some _ => e ++ e'
  | none => e ++ e' ++ witnesses { t with txOuts := outs } (br + m) s

/-- Transaction.cpp:400-485. -/
def ins (t : Tx) (br : Nat) (s : PStream) : List Nat :=
  let e := contLoop TxIn.fromStream (·.status) txIn [] t.txIns s
  let (ins, m, s, r) := Tx.contAll TxIn.fromStream (·.status) t.txIns s
  match r with
  | some _ => e
  | none => e ++ outs { t with txIns := ins } (br + m) s

/-- Transaction.cpp:352-486 `Tx::from_stream`; an unsupported segwit flag (line 386-390) and the early end for a failed object write nothing. -/
def tx (t : Tx) (s : PStream) : List Nat :=
  if t.status = .failed ∨ t.status = .ub then []
  else
    let e := version t.start s
    let (t, br, s) := t.start.readVersion s
    let (good, br, s) := t.readFlag br s
    if good then
      let e' := segwitCount t br s
      let (t, br, s) := t.readSegwitCount br s
      e ++ e' ++ ins t br s
    else e

/-! ### PSBTs -/

/-- PSBT.cpp:266-418: the parsers called by `add` in an input section. -/
def inMeta (m : InMeta) (code : UInt8) (ka va : Bytes) : List Nat :=
  if ka.length ≠ 2 then []
  else if code = 0 then tx {} { bytes := va.drop (dataPos va) }
  else if code = 1 then txOut m.txOut { bytes := va.drop (dataPos va) }
  else []

/-- PSBT.cpp:251-462 `add`. -/
def add (p : PSBT) (sec : UInt8) (k v : Script) : List Nat :=
  if sec = 0 ∨ sec.toNat > 1 + p.tx.txIns.length + p.tx.txOuts.length then []
  else
    match k.ser, v.ser with
    | .ok ka, .ok va =>
      match peek ka (dataPos ka), p.ins[sec.toNat - 1]? with
      | .ok code, some m => if sec.toNat < 1 + p.tx.txIns.length then inMeta m code ka va else []
      | _, _ => []
    | _, _ => []

/-- PSBT.cpp:231-240, line 235. -/
def roundAdd (p : PSBT) (junk : Bytes) : List Nat :=
  if p.key.status = .ub ∨ p.value.status = .ub then []
  else if p.key.status = .done ∧ p.value.status = .done then
    match p.add junk p.sec p.key p.value with
    | .ub => []
    | .ok (r, _) => add p p.sec p.key p.value ++ if r < 0 then [psbtScope] else []
  else []

/-- PSBT.cpp:219-240, line 221. -/
def roundRetry (p : PSBT) (junk : Bytes) (br : Nat) (s : PStream) : List Nat :=
  if p.key.status = .ub ∨ p.value.status = .ub then []
  else if p.key.status = .failed ∨ p.value.status = .failed then [if p.key.status = .failed then psbtKey else psbtValue]
  else
    let (p, br, s) := if p.key.status = .incomplete then p.parseKey br s else (p, br, s)
    let (p, _, _) := if p.value.status = .incomplete then p.parseValue br s else (p, br, s)
    roundAdd p junk

/-- PSBT.cpp:207-240. -/
def round (p : PSBT) (junk : Bytes) (br : Nat) (s : PStream) : List Nat :=
  let (p, br, s) := if p.key.status = .done ∧ p.value.status = .done then p.parseKey br s else (p, br, s)
  if p.key.status = .done ∧ p.key.length = 1 then []
  else
    let (p, br, s) := if p.key.status = .done then p.parseValue br s else (p, br, s)
    roundRetry p junk br s

/-- PSBT.cpp:206-249. -/
def loop (junk : Nat → Bytes) : Nat → PSBT → Nat → PStream → List Nat
  | 0, _, _, _ => []
  | fuel + 1, p, br, s =>
    if s.avail ∧ p.sec < p.sections then
      match p.round (junk p.lastKeyPos) br s with
      | (_, true) => round p (junk p.lastKeyPos) br s
      | ((q, br', s'), false) => round p (junk p.lastKeyPos) br s ++ loop junk fuel q br' s'
    else []

/-- PSBT.cpp:164-200, line 170; the transaction writes for itself. -/
def readTx (p : PSBT) : List Nat :=
  match p.key.ser, p.value.ser with
  | .ok ka, .ok va => if ka ≠ [1, 0] then [psbtScope] else tx p.tx { bytes := va.drop (dataPos va) }
  | .ok ka, .ub => if ka ≠ [1, 0] then [psbtScope] else []
  | .ub, _ => []

/-- PSBT.cpp:164-249. -/
def afterGlobal (junk : Nat → Bytes) (p : PSBT) (br : Nat) (s : PStream) : List Nat :=
  if p.lastKeyPos = 5 ∧ p.value.status = .done ∧ p.key.status = .done then
    match p.readTx with
    | .ub => []
    | .ok q =>
      if q.status = .failed then readTx p
      else readTx p ++ loop junk (2 * s.bytes.length + 2) q br s
  else loop junk (2 * s.bytes.length + 2) p br s

/-- PSBT.cpp:155-163, line 160. -/
def globalValue (junk : Nat → Bytes) (p : PSBT) (br : Nat) (s : PStream) : List Nat :=
  let (p, br, s) := if s.avail ∧ p.value.status = .incomplete then p.parseValue br s else (p, br, s)
  if p.value.status = .ub then []
  else if p.value.status = .failed then [psbtValue]
  else afterGlobal junk p br s

/-- PSBT.cpp:146-154, line 151. -/
def globalKey (junk : Nat → Bytes) (p : PSBT) (br : Nat) (s : PStream) : List Nat :=
  let (p, br, s) := if s.avail ∧ p.key.status = .incomplete then p.parseKey br s else (p, br, s)
  if p.key.status = .ub then []
  else if p.key.status = .failed then if p.value.status = .ub then [] else [psbtKey]
  else globalValue junk p br s

/-- PSBT.cpp:142-163. -/
def readGlobal (junk : Nat → Bytes) (p : PSBT) (br : Nat) (s : PStream) : List Nat :=
  if br + p.bytesParsed = p.lastKeyPos then
    let (p, br, s) := p.parseKey br s
    let (p, br, s) := p.parseValue br s
    globalKey junk p br s
  else globalKey junk p br s

/-- PSBT.cpp:88-249 `PSBT::from_stream`, line 136. -/
def psbt (junk : Nat → Bytes) (p : PSBT) (s : PStream) : List Nat :=
  if p.status = .failed ∨ p.status = .ub then []
  else if p.status = .done ∧ p.release = .ub then []
  else
    let p := p.start
    match PSBT.readMagic (PSBT.magic.drop p.bytesParsed) 0 s with
    | (false, _, _) => [psbtMagic]
    | (true, br, s) => readGlobal junk p br s

end UB.Errno
