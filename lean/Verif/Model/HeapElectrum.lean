import Verif.Model.HeapPSBT
import Verif.Model.Electrum
import Verif.Model.Copy

/-
The dynamically allocated memory behind `ElectrumTx`: Electrum.cpp:3-145, Electrum.h:21-47. `tx` is an object of Model/HeapTx; the array
`txInsMeta` is a block of the same heap. Its elements own no memory, so their contents (`metas`) are kept beside the address `ptr`.

No simplifications beside those of Model/HeapTx and Model/Electrum; the functions that only read (`serialize`, `HDPublicKey::parse`)
are those of the models without addresses, applied to what is found in memory.
-/

namespace UB

/-- Electrum.h:21-47 `class ElectrumTx`: the members of an object, with the elements of `txInsMeta`. -/
structure HElectrumTx where
  status : Status := .done
  bytesParsed : Nat := 0
  isSegwit : Bool := false
  tx : HTx := {}
  ptr : Nat := 0
  metas : List ElectrumMeta := []

/-- Transaction.cpp:270-291 `length` and `isSegwit`, which read the members of the elements of the two arrays. -/
def HTx.length (t : HTx) : HM Nat := do
  HM.access t.inPtr t.txIns.length
  HM.access t.outPtr t.txOuts.length
  let sw := t.txIns.any fun i => decide (i.witness.numElements % 256 > 0)
  return 4 + 4 + lenVarIntN t.txIns.length + lenVarIntN t.txOuts.length + (if sw then 2 else 0)
    + (t.txIns.map fun i => i.length + (if sw then i.witness.witnessLen + lenVarIntN i.witness.numElements else 0)).sum
    + (t.txOuts.map (·.length)).sum

namespace HElectrumTx

/-- Electrum.cpp:6-9, 19-22: an array of its own with the contents of that of `other`. -/
def takeMetas (self other : HElectrumTx) : HM HElectrumTx := do
  let p ← HM.new
  HM.access other.ptr self.tx.txIns.length
  HM.ifElse (other.metas.length < self.tx.txIns.length) HM.ub
    (pure { self with ptr := p, metas := other.metas.take self.tx.txIns.length, status := other.status, bytesParsed := other.bytesParsed })

/-- Electrum.cpp:3-12 copy constructor. -/
def copy (other : HElectrumTx) : HM HElectrumTx := do
  let t ← HM.obj (({} : HTx).assign other.tx)
  takeMetas { tx := t } other

/-- Electrum.cpp:13-26 `operator=` between different objects. -/
def assign (self other : HElectrumTx) : HM HElectrumTx := do
  HM.ifElse (self.tx.txIns.length > 0) (HM.free self.ptr) (pure ())
  let t ← HM.obj (self.tx.assign other.tx)
  takeMetas { self with tx := t } other

/-- Electrum.cpp:144-146, the destructor, and that of the member `tx`. -/
def destroy (e : HElectrumTx) : HM Unit := do
  HM.free e.ptr
  HM.run e.tx.destroy

/-- Electrum.cpp:32-41: the state in which a call of `from_stream` starts reading. The temporary object `Tx()` owns no memory. -/
def start (e : HElectrumTx) : HM HElectrumTx :=
  HM.ifElse (e.status = .done)
    (do
      HM.ifElse (e.tx.txIns.length > 0) (HM.free e.ptr) (pure ())
      let t ← HM.obj (e.tx.assign {})
      return { status := .incomplete, bytesParsed := 0, isSegwit := false, tx := t, ptr := 0, metas := [] })
    (pure { e with status := .incomplete })

/-- Electrum.cpp:60-76: one round of the loop over the inputs. -/
def legacyMeta (junk : Bytes) (i : HTxIn) : HM (Option (HTxIn × ElectrumMeta)) :=
  HM.ifElse (i.scriptSig.length ≠ 88) (pure none)
    (do
      let sc ← HM.look i.scriptSig.load
      let (_, arr) ← HM.lift (serialize sc.toStream 88 0 .raw)
      let hd := (({} : HDPub).fromStream junk { bytes := arr.drop 6 }).1
      HM.ifElse (hd.key.status = .ub) HM.ub
        (HM.ifElse (hd.key.status ≠ .done) (pure none)
          (do
            let d0 := UInt16.ofNat ((arr.getD 84 0).toNat + (arr.getD 85 0).toNat * 256)
            let d1 := UInt16.ofNat ((arr.getD 86 0).toNat + (arr.getD 87 0).toNat * 256)
            let sc ← HM.obj (i.scriptSig.assign {})
            return some ({ i with scriptSig := sc }, { hd := hd, derivation := some (d0, d1) }))))

/-- Electrum.cpp:58-77: the loop. -/
def legacyMetas (junk : Bytes) : List HTxIn → HM (List HTxIn × List ElectrumMeta × Bool)
  | [] => pure ([], [], true)
  | i :: is => do
    match ← legacyMeta junk i with
    | none => return (i :: is, (i :: is).map fun _ => {}, false)
    | some (i, m) =>
      let (is, ms, ok) ← legacyMetas junk is
      return (i :: is, m :: ms, ok)

/-- `status = st; bytes_parsed += bytes_read; return bytes_read;` -/
def stop (e : HElectrumTx) (st : Status) (br : Nat) (s : PStream) : HElectrumTx × Nat × PStream :=
  ({ e with status := st, bytesParsed := e.bytesParsed + br }, br, s)

/-- Electrum.cpp:81-93. -/
def segwitStart (e : HElectrumTx) : HM HElectrumTx := do
  let ins ← HM.mapEach (fun i : HTxIn => do
    let w ← HM.obj (i.witness.assign {})
    return { i with witness := w }) e.tx.txIns
  let p ← HM.new
  return { e with
    tx := { e.tx with txIns := ins, status := .done, locktime := 0 }
    isSegwit := true
    ptr := p
    metas := ins.map fun _ => { derivation := some (0, 0), amount := some 0 } }

/-- Electrum.cpp:100-142: metadata and locktime of a segwit transaction; `none`: the loop that reads extended keys is still running. -/
def readSegwit (junk : Bytes) (fuel : Nat) (e : HElectrumTx) (br : Nat) (s : PStream) : HM (Option (HElectrumTx × Nat × PStream)) :=
  HM.ifElse (e.isSegwit ∧ e.tx.status = .done)
    (do
      let len ← e.tx.length
      HM.access e.ptr e.tx.txIns.length
      HM.ifElse (e.metas.length ≠ e.tx.txIns.length) HM.ub
        (pure (do
          let first := 6 + len + 2 - 4
          let (ms, pos, s) ← ElectrumTx.readMetas junk fuel first e.metas (e.bytesParsed + br) s
          let lock := first + 102 * e.metas.length
          let (l, s) := s.readN (lock + 4 - pos)
          let e := { e with metas := ms, tx := { e.tx with locktime := accLE e.tx.locktime (pos - lock) l } }
          let pos := pos + l.length
          if ms.any (fun m => m.hd.key.status = .ub) then return e.stop .ub (pos - e.bytesParsed) s
          else return e.stop (if pos = lock + 4 then .done else e.status) (pos - e.bytesParsed) s)))
    (pure (some (e.stop e.status br s)))

/-- Electrum.cpp:81-99: the transaction could not be parsed; `ins` are its inputs. -/
def afterFailed (junk : Bytes) (fuel : Nat) (e : HElectrumTx) (br : Nat) (s : PStream) : List HTxIn → HM (Option (HElectrumTx × Nat × PStream))
  | i :: _ => HM.ifElse (i.witness.status = .failed)
    (do
      let e ← e.segwitStart
      readSegwit junk fuel e br s)
    (pure (some (e.stop .failed br s)))
  | [] => pure (some (e.stop .failed br s))

/-- Electrum.cpp:80-142. -/
def afterTx (junk : Bytes) (fuel : Nat) (e : HElectrumTx) (br : Nat) (s : PStream) : HM (Option (HElectrumTx × Nat × PStream)) :=
  HM.ifElse (e.tx.status = .failed)
    (do
      HM.access e.tx.inPtr e.tx.txIns.length
      afterFailed junk fuel e br s e.tx.txIns)
    (readSegwit junk fuel e br s)

/-- Electrum.cpp:56-78: the metadata of a complete transaction. -/
def readLegacy (junk : Bytes) (fuel : Nat) (e : HElectrumTx) (br : Nat) (s : PStream) : HM (Option (HElectrumTx × Nat × PStream)) := do
  let p ← HM.new
  HM.access e.tx.inPtr e.tx.txIns.length
  let (ins, ms, ok) ← legacyMetas junk e.tx.txIns
  let e := { e with tx := { e.tx with txIns := ins }, ptr := p, metas := ms, status := .done }
  HM.ifElse (ok = true) (afterTx junk fuel e br s) (pure (some (e.stop .failed br s)))

/-- Electrum.cpp:53-142: the transaction, and what is behind it. -/
def readTx (junk : Bytes) (fuel : Nat) (e : HElectrumTx) (br : Nat) (s : PStream) : HM (Option (HElectrumTx × Nat × PStream)) :=
  HM.ifElse (e.isSegwit = false ∧ s.avail ∧ e.tx.status ≠ .failed)
    (do
      let (t, n, s) ← HM.parse (e.tx.fromStream s)
      let e := { e with tx := t }
      HM.ifElse (t.status = .done) (readLegacy junk fuel e (br + n) s) (afterTx junk fuel e (br + n) s))
    (afterTx junk fuel e br s)

/-- Electrum.cpp:28-143 `from_stream`: object, return value and stream; `none`: the loop that reads extended keys is still running after `fuel`
rounds. -/
def fromStream (junk : Bytes) (fuel : Nat) (e : HElectrumTx) (s : PStream) : HM (Option (HElectrumTx × Nat × PStream)) :=
  HM.ifElse (e.status = .failed ∨ e.status = .ub) (pure (some (e, 0, s)))
    (do
      let e ← e.start
      let (ok, br, s) := ElectrumTx.readMagic (ElectrumTx.magic.drop e.bytesParsed) s
      HM.ifElse (ok = true) (readTx junk fuel e br s) (pure (some (e.stop .failed br s))))

end HElectrumTx

/-! ### Programs -/

/-- The variables of a program and the heap. -/
structure EWorld where
  heap : Heap
  objs : Nat → Option HElectrumTx

/-- The statements, with the members of Electrum.cpp they call. -/
inductive EOp where
  /-- `ElectrumTx x;` (Electrum.h:27) -/
  | new (x : Nat)
  /-- `ElectrumTx x = y;` (Electrum.cpp:3) -/
  | copy (x y : Nat)
  /-- `x = y;` (Electrum.cpp:13) -/
  | assign (x y : Nat)
  /-- `n = s.parse(&x);` which calls `x.from_stream(&s)` (Electrum.cpp:28); `junk` is what memory that is not initialised contains; the loop
  that reads keys makes at most `fuel` rounds for a key -/
  | parse (x : Nat) (junk : Bytes) (fuel : Nat) (s : PStream)
  /-- the end of the lifetime of `x` (Electrum.cpp:144) -/
  | destroy (x : Nat)

/-- What parsing tells: the returned number, the stream afterwards, `getStatus()`. -/
structure EOut where
  returned : Nat
  stream : PStream
  status : Status
deriving DecidableEq, Repr

namespace EWorld

/-- No variables, nothing allocated. -/
def init (denies : Nat → Nat → Bool) : EWorld := ⟨⟨fun _ => none, 0, denies⟩, fun _ => none⟩

def put (W : EWorld) (x : Nat) (o : Option HElectrumTx) (h : Heap) : EWorld := ⟨h, fun y => if y = x then o else W.objs y⟩

/-- One statement. Parsing that does not come to an end within the given rounds is `ub` here. -/
def step (W : EWorld) : EOp → C (EWorld × Option EOut)
  | .new x => match W.objs x with
    | none => .ok (W.put x (some {}) W.heap, none)
    | some _ => .ok (W, none)
  | .copy x y => match W.objs x, W.objs y with
    | none, some o => do
      let (o, h) ← o.copy W.heap
      return (W.put x (some o) h, none)
    | _, _ => .ok (W, none)
  | .assign x y =>
    if x = y then .ok (W, none)
    else match W.objs x, W.objs y with
      | some self, some o => do
        let (o, h) ← self.assign o W.heap
        return (W.put x (some o) h, none)
      | _, _ => .ok (W, none)
  | .parse x junk fuel s => match W.objs x with
    | some o => do
      let (r, h) ← o.fromStream junk fuel s W.heap
      match r with
      | some (o, n, s) => return (W.put x (some o) h, some ⟨n, s, o.status⟩)
      | none => .ub
    | none => .ok (W, none)
  | .destroy x => match W.objs x with
    | some o => do
      let (_, h) ← o.destroy W.heap
      return (W.put x none h, none)
    | none => .ok (W, none)

/-- A sequence of statements, with what the calls of `parse` tell. -/
def run : List EOp → EWorld → C (EWorld × List (Option EOut))
  | [], W => .ok (W, [])
  | op :: ops, W => do
    let (W, r) ← W.step op
    let (W, rs) ← run ops W
    return (W, r :: rs)

end EWorld

end UB
