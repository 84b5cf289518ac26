import Verif.Model.HeapTx
import Verif.Model.PSBT

/-
The dynamically allocated memory behind `PSBT`: PSBT.h:11-103, PSBT.cpp:88-462, 530-600, 740-815. `tx`, `key`, `value` and the scripts
and outputs in the metadata are objects of Model/Heap and Model/HeapTx; the arrays `txInsMeta`, `txOutsMeta`, `derivations`, `signatures`,
the paths and the buffers are blocks of the same heap.

Simplifications, beside those of Model/HeapTx: `calloc` in PSBT.cpp always succeeds (the code would ignore the pair or fail); the contents
of the paths and of the temporary buffers are kept beside their addresses; `calloc(0)` returns a block, as on common machines. The
functions that only read (`hash`, `serialize`) are those of the models without addresses, applied to what is found in memory. The
undefined behaviour of Model/PSBT which has nothing to do with memory blocks (the 256th entry, sections that do not exist) is kept.
-/

namespace UB

/-- Code that may use and change the heap. -/
def HM (α : Type) : Type := Heap → C (α × Heap)

namespace HM

instance : Monad HM where
  pure a := fun h => .ok (a, h)
  bind x f := fun h => x h >>= fun r => f r.1 r.2

/-- Undefined behaviour. -/
def ub {α : Type} : HM α := fun _ => .ub

/-- A function that returns an object and the heap. -/
def obj {α : Type} (f : Heap → C (α × Heap)) : HM α := f

/-- A function that returns nothing. -/
def run (f : Heap → C Heap) : HM Unit := fun h => f h >>= fun h' => .ok ((), h')

/-- A function that parses. -/
def parse {α : Type} (f : Heap → C (α × Nat × PStream × Heap)) : HM (α × Nat × PStream) :=
  fun h => f h >>= fun r => .ok ((r.1, r.2.1, r.2.2.1), r.2.2.2)

/-- A function that only reads. -/
def look {α : Type} (f : Heap → C α) : HM α := fun h => f h >>= fun a => .ok (a, h)

/-- A computation without the heap. -/
def lift {α : Type} (x : C α) : HM α := look fun _ => x

/-- `new T[n]`, or `calloc` of any size. -/
def new : HM Nat := fun h => .ok h.new

/-- `free(p)`, or `delete [] p` for elements without destructors. -/
def free (p : Nat) : HM Unit := run (·.free p)

/-- Using an array of `n` elements at `p`. -/
def access (p n : Nat) : HM Unit := look (·.access p n)

/-- `if(c){ x } else { y }` -/
def ifElse {α : Type} (c : Prop) [Decidable c] (x y : HM α) : HM α := if c then x else y

/-- `for(...) f(x[i]);` -/
def forEach {α : Type} (f : α → HM Unit) : List α → HM Unit
  | [] => pure ()
  | x :: xs => do
    f x
    forEach f xs

/-- `for(...) y[i] = f(x[i]);` -/
def mapEach {α β : Type} (f : α → HM β) : List α → HM (List β)
  | [] => pure []
  | x :: xs => do
    let y ← f x
    let ys ← mapEach f xs
    return y :: ys

end HM

/-! ### What is found in memory -/

/-- The script as the code that reads it finds it: the members, and the block. -/
def HScript.load (sc : HScript) (h : Heap) : C Script :=
  match h.blocks sc.ptr with
  | some b => .ok ⟨sc.status, sc.bytesParsed, sc.lenLen, sc.scriptLen, b⟩
  | none => if sc.scriptLen > 0 ∨ sc.ptr ≠ 0 then .ub else .ok ⟨sc.status, sc.bytesParsed, sc.lenLen, sc.scriptLen, []⟩

/-- The witness as the code that reads it finds it. -/
def HWitness.load (w : HWitness) (h : Heap) : C Witness :=
  let v : Bytes → Witness := fun b =>
    { status := w.status, bytesParsed := w.bytesParsed, lenLen := w.lenLen, numElements := w.numElements, curElement := w.curElement,
      curElementLen := w.curElementLen, curBytesParsed := w.curBytesParsed, curLen := w.curLen, arr := b }
  if w.witnessLen = 0 then .ok (v [])
  else match h.blocks w.ptr with
    | some b => .ok (v b)
    | none => .ub

def HTxIn.load (t : HTxIn) (h : Heap) : C TxIn := do
  let sc ← t.scriptSig.load h
  let w ← t.witness.load h
  return ⟨t.status, t.bytesParsed, t.hash, t.outputIndex, sc, t.sequence, w⟩

def HTxOut.load (t : HTxOut) (h : Heap) : C TxOut := do
  let sc ← t.scriptPubkey.load h
  return ⟨t.status, t.bytesParsed, t.tmp, t.amount, sc⟩

/-- The elements of an array, one after another. -/
def loadAll {α β : Type} (f : α → Heap → C β) : List α → Heap → C (List β)
  | [], _ => .ok []
  | x :: xs, h => do
    let y ← f x h
    let ys ← loadAll f xs h
    return y :: ys

def HTx.load (t : HTx) (h : Heap) : C Tx := do
  h.access t.inPtr t.txIns.length
  h.access t.outPtr t.txOuts.length
  let ins ← loadAll HTxIn.load t.txIns h
  let outs ← loadAll HTxOut.load t.txOuts h
  return ⟨t.status, t.bytesParsed, t.segwitFlag, t.version, ins, outs, t.locktime⟩

/-! ### Metadata -/

/-- PSBT.h:11-19 `PSBTDerivation`; `ready = false`: the members after `pubkey` have not been initialised. The path is kept beside its address. -/
structure HDerivation where
  pubkey : ECPoint := {}
  ready : Bool := false
  fingerprint : Bytes := zeros 4
  ptr : Nat := 0
  path : List UInt32 := []
deriving DecidableEq, Repr

/-- PSBT.h:30-45 `PSBTInputMetadata`; the addresses of arrays without elements are not initialised by the code, here they are 0. -/
structure HInMeta where
  txOut : HTxOut := {}
  derPtr : Nat := 0
  ders : List HDerivation := []
  redeemScript : HScript := {}
  witnessScript : HScript := {}
  sigPtr : Nat := 0
  sigs : List PartialSig := []
deriving DecidableEq, Repr

/-- PSBT.h:48-58 `PSBTOutputMetadata`. -/
structure HOutMeta where
  derPtr : Nat := 0
  ders : List HDerivation := []
  redeemScript : HScript := {}
  witnessScript : HScript := {}
deriving DecidableEq, Repr

/-- PSBT.h:70-103 `class PSBT`; `ins` and `outs` are the elements of the arrays at `insPtr` and `outsPtr`. -/
structure HPSBT where
  status : Status := .done
  bytesParsed : Nat := 0
  key : HScript := {}
  value : HScript := {}
  sec : UInt8 := 0
  lastKeyPos : Nat := 0
  tx : HTx := {}
  insPtr : Nat := 0
  ins : List HInMeta := []
  outsPtr : Nat := 0
  outs : List HOutMeta := []
deriving DecidableEq, Repr

namespace HDerivation

/-- PSBT.cpp:97-101, 574-578 and the like: `if(derivationLen > 0) free(derivation);` -/
def free (d : HDerivation) : HM Unit :=
  if d.ready = false then HM.ub
  else if d.path.length > 0 then HM.free d.ptr else pure ()

/-- PSBT.cpp:96-103 and the like: `if(derivationsLen > 0){ ... delete [] derivations; }` -/
def freeAll (p : Nat) (ds : List HDerivation) : HM Unit :=
  if ds.length > 0 then do
    HM.access p ds.length
    HM.forEach HDerivation.free ds
    HM.free p
  else pure ()

/-- PSBT.cpp:541-548 and the like: the members, and a path of its own. -/
def copy (d : HDerivation) : HM HDerivation :=
  if d.ready = false then HM.ub
  else do
    let p ← HM.new
    HM.access d.ptr d.path.length
    return { d with ptr := p }

/-- PSBT.cpp:540-549 and the like: a new array with copies of the entries. -/
def copyAll (p : Nat) (ds : List HDerivation) : HM (Nat × List HDerivation) := do
  let q ← HM.new
  HM.access p ds.length
  let ds ← HM.mapEach HDerivation.copy ds
  return (q, ds)

/-- PSBT.cpp:400-406, 447-453: fingerprint and path of a new entry. -/
def fill (d : HDerivation) (va : Bytes) : HM HDerivation := do
  let e ← HM.lift (Derivation.load { pubkey := d.pubkey } va)
  let p ← HM.new
  return { pubkey := d.pubkey, ready := true, fingerprint := e.fingerprint, ptr := p, path := e.path }

/-- PSBT.cpp:376-391, 424-438: an array with one more entry in place of the one before; the entries are copied with the addresses of their paths. -/
def extend (p : Nat) (ds : List HDerivation) : HM Nat :=
  if ds.length = 0 then HM.new
  else do
    let q ← HM.new
    HM.access p ds.length
    HM.free p
    return q

/-- PSBT.cpp:372-409, 420-456: result code, new array. -/
def add (junk : Bytes) (p : Nat) (ds : List HDerivation) (ka va : Bytes) : HM (Int × Nat × List HDerivation) :=
  if ka.length ≠ 35 ∧ ka.length ≠ 67 then return (-1, p, ds)
  else if ds.length = 255 then HM.ub
  else do
    let q ← extend p ds
    let pub := (ECPoint.fromSec junk {} (ka.drop 2)).1
    if pub.status = .ub then HM.ub
    else if pub.status ≠ .done then return (-1, q, ds ++ [{ pubkey := pub }])
    else do
      let d ← HDerivation.fill { pubkey := pub } va
      return (1, q, ds ++ [d])

end HDerivation

namespace HInMeta

/-- The implicitly defined destructor: the members in reverse order. -/
def destroy (m : HInMeta) (h : Heap) : C Heap := do
  let h ← m.witnessScript.destroy h
  let h ← m.redeemScript.destroy h
  m.txOut.destroy h

/-- PSBT.cpp:96-106, 573-583, 744-754: what an entry points to. -/
def release (m : HInMeta) : HM Unit := do
  HDerivation.freeAll m.derPtr m.ders
  if m.sigs.length > 0 then HM.free m.sigPtr else pure ()

/-- `txInsMeta[i] = other.txInsMeta[i];` (PSBT.cpp:538, 778) for a new entry: the members, with the same addresses. -/
def assign (other : HInMeta) : HM HInMeta := do
  let o ← HM.obj (({} : HTxOut).assign other.txOut)
  let r ← HM.obj (({} : HScript).assign other.redeemScript)
  let w ← HM.obj (({} : HScript).assign other.witnessScript)
  return { other with txOut := o, redeemScript := r, witnessScript := w }

/-- PSBT.cpp:538-553 (copy constructor). -/
def copy (other : HInMeta) : HM HInMeta := do
  let m ← assign other
  let (p, ds) ← HDerivation.copyAll m.derPtr m.ders
  let q ← HM.new
  HM.access m.sigPtr m.sigs.length
  return { m with derPtr := p, ders := ds, sigPtr := q }

/-- PSBT.cpp:778-796 (assignment): arrays only if they have elements. -/
def copySome (other : HInMeta) : HM HInMeta := do
  let m ← assign other
  let (p, ds) ← HM.ifElse (m.ders.length > 0) (HDerivation.copyAll m.derPtr m.ders) (pure (m.derPtr, m.ders))
  if m.sigs.length > 0 then do
    let q ← HM.new
    HM.access m.sigPtr m.sigs.length
    return { m with derPtr := p, ders := ds, sigPtr := q }
  else return { m with derPtr := p, ders := ds }

/-- PSBT.cpp:268-300, key code 0: the output of a transaction that is parsed into a temporary object. -/
def addPrev (m : HInMeta) (i : HTxIn) (va : Bytes) : HM (Int × HInMeta) := do
  let (t, _, _) ← HM.parse (({} : HTx).fromStream { bytes := va.drop (dataPos va) })
  if t.status = .ub then HM.ub
  else if t.status ≠ .done then do
    HM.run t.destroy
    return (-2, m)
  else do
    let v ← HM.look t.load
    let hash ← HM.lift v.hash
    if hash ≠ i.hash then do
      HM.run t.destroy
      return (-3, m)
    else match t.txOuts[i.outputIndex.toNat]? with
      | none => do
        HM.run t.destroy
        return (-3, m)
      | some o => do
        HM.access t.outPtr t.txOuts.length
        let o ← HM.obj (m.txOut.assign o)
        HM.run t.destroy
        return (1, { m with txOut := o })

/-- PSBT.cpp:327-342: an array with one more signature in place of the one before. -/
def addSig (m : HInMeta) (g : PartialSig) : HM HInMeta :=
  if m.sigs.length = 255 then HM.ub
  else if m.sigs.length = 0 then do
    let q ← HM.new
    return { m with sigPtr := q, sigs := [g] }
  else do
    let q ← HM.new
    HM.access m.sigPtr m.sigs.length
    HM.free m.sigPtr
    return { m with sigPtr := q, sigs := m.sigs ++ [g] }

/-- PSBT.cpp:266-418, the input section. -/
def add (junk : Bytes) (m : HInMeta) (i : HTxIn) (code : UInt8) (ka va : Bytes) : HM (Int × HInMeta) :=
  if code = 0 then
    if ka.length ≠ 2 then return (-1, m) else m.addPrev i va
  else if code = 1 then
    if ka.length ≠ 2 then return (-1, m)
    else do
      let (o, _, _) ← HM.parse (m.txOut.fromStream { bytes := va.drop (dataPos va) })
      if o.status = .ub then HM.ub
      else return (if o.status ≠ .done then -2 else 1, { m with txOut := o })
  else if code = 2 then
    if ka.length ≠ 35 ∧ ka.length ≠ 67 then return (-1, m)
    else
      let pub := (ECPoint.fromSec junk {} (ka.drop 2)).1
      let sig := (({} : Sig).fromStream { bytes := va.drop 1 }).1
      if pub.status = .ub then HM.ub
      else if pub.status ≠ .done then return (-1, m)
      else if sig.status = .ub then HM.ub
      else if sig.status ≠ .done then return (-2, m)
      else do
        let m ← m.addSig ⟨pub, sig⟩
        return (1, m)
  else if code = 4 then
    if ka.length ≠ 2 then return (-1, m)
    else do
      let (s, _, _) ← HM.parse (m.redeemScript.fromStream { bytes := va })
      if s.status = .ub then HM.ub else return (1, { m with redeemScript := s })
  else if code = 5 then
    if ka.length ≠ 2 then return (-1, m)
    else do
      let (s, _, _) ← HM.parse (m.witnessScript.fromStream { bytes := va })
      if s.status = .ub then HM.ub else return (1, { m with witnessScript := s })
  else if code = 6 then do
    let (r, p, ds) ← HDerivation.add junk m.derPtr m.ders ka va
    return (r, { m with derPtr := p, ders := ds })
  else return (0, m)

end HInMeta

namespace HOutMeta

/-- The implicitly defined destructor. -/
def destroy (m : HOutMeta) (h : Heap) : C Heap := do
  let h ← m.witnessScript.destroy h
  m.redeemScript.destroy h

/-- PSBT.cpp:111-118, 588-595, 759-766. -/
def release (m : HOutMeta) : HM Unit := HDerivation.freeAll m.derPtr m.ders

/-- PSBT.cpp:555-567, 801-812: in both cases with a new array, whether it has elements or not. -/
def copy (other : HOutMeta) : HM HOutMeta := do
  let r ← HM.obj (({} : HScript).assign other.redeemScript)
  let w ← HM.obj (({} : HScript).assign other.witnessScript)
  let (p, ds) ← HDerivation.copyAll other.derPtr other.ders
  return ⟨p, ds, r, w⟩

/-- PSBT.cpp:419-458, the output section; `false`: the function returns without giving its buffers back (PSBT.cpp:424, 432). -/
def add (junk : Bytes) (m : HOutMeta) (code : UInt8) (ka va : Bytes) : HM (Bool × Int × HOutMeta) :=
  if code = 0 then
    if ka.length ≠ 2 then return (false, -1, m)
    else do
      let (s, _, _) ← HM.parse (m.redeemScript.fromStream { bytes := va })
      if s.status = .ub then HM.ub else return (true, 1, { m with redeemScript := s })
  else if code = 1 then
    if ka.length ≠ 2 then return (false, -1, m)
    else do
      let (s, _, _) ← HM.parse (m.witnessScript.fromStream { bytes := va })
      if s.status = .ub then HM.ub else return (true, 1, { m with witnessScript := s })
  else if code = 2 then do
    let (r, p, ds) ← HDerivation.add junk m.derPtr m.ders ka va
    return (true, r, { m with derPtr := p, ders := ds })
  else return (true, 0, m)

end HOutMeta

namespace HPSBT

/-- PSBT.cpp:94-122, 571-599, 742-770. -/
def release (p : HPSBT) : HM Unit := do
  HM.ifElse (p.tx.txIns.length > 0) (do
    HM.access p.insPtr p.tx.txIns.length
    if p.ins.length < p.tx.txIns.length then HM.ub
    else do
      HM.forEach HInMeta.release (p.ins.take p.tx.txIns.length)
      HM.run (deleteArray HInMeta.destroy p.insPtr p.ins)) (pure ())
  HM.ifElse (p.tx.txOuts.length > 0) (do
    HM.access p.outsPtr p.tx.txOuts.length
    if p.outs.length < p.tx.txOuts.length then HM.ub
    else do
      HM.forEach HOutMeta.release (p.outs.take p.tx.txOuts.length)
      HM.run (deleteArray HOutMeta.destroy p.outsPtr p.outs)) (pure ())

/-- PSBT.cpp:569-600, the destructor, and those of the members in reverse order (PSBT.h:74-82). -/
def destroy (p : HPSBT) : HM Unit := do
  p.release
  HM.run p.tx.destroy
  HM.run p.value.destroy
  HM.run p.key.destroy

/-- PSBT.cpp:530-568 copy constructor. -/
def copy (other : HPSBT) : HM HPSBT := do
  let t ← HM.obj (({} : HTx).assign other.tx)
  let p ← HM.new
  let q ← HM.new
  HM.access other.insPtr t.txIns.length
  if other.ins.length < t.txIns.length then HM.ub
  else do
    let ins ← HM.mapEach HInMeta.copy (other.ins.take t.txIns.length)
    HM.access other.outsPtr t.txOuts.length
    if other.outs.length < t.txOuts.length then HM.ub
    else do
      let outs ← HM.mapEach HOutMeta.copy (other.outs.take t.txOuts.length)
      return { status := other.status, tx := t, insPtr := p, ins := ins, outsPtr := q, outs := outs }

/-- PSBT.cpp:775-797: the metadata of the inputs, if there are inputs. -/
def takeIns (self other : HPSBT) : HM HPSBT :=
  if self.tx.txIns.length > 0 then do
    let p ← HM.new
    HM.access other.insPtr self.tx.txIns.length
    if other.ins.length < self.tx.txIns.length then HM.ub
    else do
      let ins ← HM.mapEach HInMeta.copySome (other.ins.take self.tx.txIns.length)
      return { self with insPtr := p, ins := ins }
  else return self

/-- PSBT.cpp:798-813: the metadata of the outputs. -/
def takeOuts (self other : HPSBT) : HM HPSBT :=
  if self.tx.txOuts.length > 0 then do
    let p ← HM.new
    HM.access other.outsPtr self.tx.txOuts.length
    if other.outs.length < self.tx.txOuts.length then HM.ub
    else do
      let outs ← HM.mapEach HOutMeta.copy (other.outs.take self.tx.txOuts.length)
      return { self with outsPtr := p, outs := outs }
  else return self

/-- PSBT.cpp:740-815 `operator=` between different objects. -/
def assign (self other : HPSBT) : HM HPSBT := do
  self.release
  let t ← HM.obj (self.tx.assign other.tx)
  let self ← takeIns { self with tx := t, status := other.status } other
  takeOuts self other

/-- PSBT.cpp:251-462 `add`. -/
def add (p : HPSBT) (junk : Bytes) (sec : UInt8) (k v : HScript) : HM (Int × HPSBT) :=
  if sec = 0 ∨ sec.toNat > 1 + p.tx.txIns.length + p.tx.txOuts.length then return (0, p)
  else do
    let kp ← HM.new
    let kv ← HM.look k.load
    let ka ← HM.lift kv.ser
    let vp ← HM.new
    let vv ← HM.look v.load
    let va ← HM.lift vv.ser
    let code ← HM.lift (peek ka (dataPos ka))
    if sec.toNat < 1 + p.tx.txIns.length then do
      HM.access p.insPtr 1
      HM.access p.tx.inPtr p.tx.txIns.length
      match p.ins[sec.toNat - 1]?, p.tx.txIns[sec.toNat - 1]? with
      | some m, some i => do
        let (r, m) ← m.add junk i code ka va
        HM.free kp
        HM.free vp
        return (r, { p with ins := p.ins.set (sec.toNat - 1) m })
      | _, _ => HM.ub
    else do
      HM.access p.outsPtr 1
      match p.outs[sec.toNat - 1 - p.tx.txIns.length]? with
      | some m => do
        let (b, r, m) ← m.add junk code ka va
        if b then do
          HM.free kp
          HM.free vp
          return (r, { p with outs := p.outs.set (sec.toNat - 1 - p.tx.txIns.length) m })
        else return (r, { p with outs := p.outs.set (sec.toNat - 1 - p.tx.txIns.length) m })
      | none => HM.ub

/-- PSBT.cpp:88-129. -/
def start (p : HPSBT) : HM HPSBT :=
  if p.status = .done then do
    p.release
    return { p with tx := { p.tx with status := .done, bytesParsed := 0 }, bytesParsed := 0, sec := 0, lastKeyPos := 5, status := .incomplete }
  else return { p with status := .incomplete }

/-- `status = st; bytes_parsed += bytes_read; return bytes_read;` -/
def finish (p : HPSBT) (st : Status) (br : Nat) (s : PStream) : HPSBT × Nat × PStream :=
  ({ p with status := st, bytesParsed := p.bytesParsed + br }, br, s)

/-- `bytes_read += s->parse(&key);` -/
def parseKey (p : HPSBT) (br : Nat) (s : PStream) : HM (HPSBT × Nat × PStream) := do
  let (k, n, s) ← HM.parse (p.key.fromStream s)
  return ({ p with key := k }, br + n, s)

/-- `bytes_read += s->parse(&value);` -/
def parseValue (p : HPSBT) (br : Nat) (s : PStream) : HM (HPSBT × Nat × PStream) := do
  let (v, n, s) ← HM.parse (p.value.fromStream s)
  return ({ p with value := v }, br + n, s)

/-- PSBT.cpp:201-204. -/
def sections (p : HPSBT) : UInt8 :=
  if p.lastKeyPos > 5 then UInt8.ofNat (1 + p.tx.txIns.length + p.tx.txOuts.length) else 0

/-- PSBT.cpp:242-249: the end of `from_stream`. -/
def finishAll (p : HPSBT) (br : Nat) (s : PStream) : HM (HPSBT × Nat × PStream) :=
  if p.sec = p.sections ∧ p.sections > 0 then do
    let k ← HM.obj (p.key.assign {})
    let v ← HM.obj (p.value.assign {})
    return ({ p with key := k, value := v }).finish .done br s
  else return p.finish p.status br s

/-- PSBT.cpp:231-240. -/
def roundAdd (p : HPSBT) (junk : Bytes) (br : Nat) (s : PStream) : HM ((HPSBT × Nat × PStream) × Bool) :=
  if p.key.status = .done ∧ p.value.status = .done then do
    let (r, q) ← p.add junk p.sec p.key p.value
    if r < 0 then return (q.finish .failed br s, true)
    else return (({ q with lastKeyPos := q.lastKeyPos + (p.key.length + p.value.length) }, br, s), false)
  else return ((p, br, s), false)

/-- PSBT.cpp:219-230. -/
def roundRetry (p : HPSBT) (junk : Bytes) (br : Nat) (s : PStream) : HM ((HPSBT × Nat × PStream) × Bool) :=
  if p.key.status = .failed ∨ p.value.status = .failed then return (p.finish .failed br s, true)
  else do
    let (p, br, s) ← HM.ifElse (p.key.status = .incomplete) (p.parseKey br s) (pure (p, br, s))
    let (p, br, s) ← HM.ifElse (p.value.status = .incomplete) (p.parseValue br s) (pure (p, br, s))
    p.roundAdd junk br s

/-- PSBT.cpp:207-240, one round of the loop over the pairs. -/
def round (p : HPSBT) (junk : Bytes) (br : Nat) (s : PStream) : HM ((HPSBT × Nat × PStream) × Bool) := do
  let (p, br, s) ← HM.ifElse (p.key.status = .done ∧ p.value.status = .done) (p.parseKey br s) (pure (p, br, s))
  if p.key.status = .done ∧ p.key.length = 1 then
    return (({ p with sec := p.sec + 1, lastKeyPos := p.lastKeyPos + 1 }, br, s), false)
  else do
    let (p, br, s) ← HM.ifElse (p.key.status = .done) (p.parseValue br s) (pure (p, br, s))
    p.roundRetry junk br s

/-- PSBT.cpp:206-249: the loop over the pairs, with the number of rounds as in Model/PSBT. -/
def loop (junk : Nat → Bytes) : Nat → HPSBT → Nat → PStream → HM (HPSBT × Nat × PStream)
  | 0, p, br, s => p.finishAll br s
  | fuel + 1, p, br, s =>
    if s.avail ∧ p.sec < p.sections then do
      let (r, b) ← p.round (junk p.lastKeyPos) br s
      if b then return r else loop junk fuel r.1 r.2.1 r.2.2
    else p.finishAll br s

/-- PSBT.cpp:185-199: the arrays for the metadata. -/
def newMetas (p : HPSBT) : HM HPSBT := do
  let a ← HM.new
  let b ← HM.new
  return { p with insPtr := a, ins := List.replicate p.tx.txIns.length {}, outsPtr := b, outs := List.replicate p.tx.txOuts.length {}
                  lastKeyPos := p.lastKeyPos + (p.key.length + p.value.length) }

/-- PSBT.cpp:164-200. -/
def readTx (p : HPSBT) : HM HPSBT := do
  let arr ← HM.new
  let kv ← HM.look p.key.load
  let ka ← HM.lift kv.ser
  HM.free arr
  if ka ≠ [1, 0] then return { p with status := .failed }
  else do
    let arr ← HM.new
    let vv ← HM.look p.value.load
    let va ← HM.lift vv.ser
    let (t, _, _) ← HM.parse (p.tx.fromStream { bytes := va.drop (dataPos va) })
    HM.free arr
    if t.status = .ub then HM.ub
    else if t.status ≠ .done then return { p with status := .failed, tx := t }
    else newMetas { p with tx := t }

/-- PSBT.cpp:164-249, after the first pair. -/
def afterGlobal (junk : Nat → Bytes) (p : HPSBT) (br : Nat) (s : PStream) : HM (HPSBT × Nat × PStream) :=
  if p.lastKeyPos = 5 ∧ p.value.status = .done ∧ p.key.status = .done then do
    let q ← p.readTx
    if q.status = .failed then return q.finish .failed br s
    else loop junk (2 * s.bytes.length + 2) q br s
  else loop junk (2 * s.bytes.length + 2) p br s

/-- PSBT.cpp:155-163: the value of the first pair. -/
def globalValue (junk : Nat → Bytes) (p : HPSBT) (br : Nat) (s : PStream) : HM (HPSBT × Nat × PStream) := do
  let (p, br, s) ← HM.ifElse (s.avail ∧ p.value.status = .incomplete) (p.parseValue br s) (pure (p, br, s))
  if p.value.status = .failed then return p.finish .failed br s
  else afterGlobal junk p br s

/-- PSBT.cpp:146-154: the key of the first pair. -/
def globalKey (junk : Nat → Bytes) (p : HPSBT) (br : Nat) (s : PStream) : HM (HPSBT × Nat × PStream) := do
  let (p, br, s) ← HM.ifElse (s.avail ∧ p.key.status = .incomplete) (p.parseKey br s) (pure (p, br, s))
  if p.key.status = .failed then return p.finish .failed br s
  else globalValue junk p br s

/-- PSBT.cpp:142-163: the global scope. -/
def readGlobal (junk : Nat → Bytes) (p : HPSBT) (br : Nat) (s : PStream) : HM (HPSBT × Nat × PStream) :=
  if br + p.bytesParsed = p.lastKeyPos then do
    let (p, br, s) ← p.parseKey br s
    let (p, br, s) ← p.parseValue br s
    globalKey junk p br s
  else globalKey junk p br s

/-- PSBT.cpp:88-249 `from_stream`. -/
def fromStream (junk : Nat → Bytes) (p : HPSBT) (s : PStream) : HM (HPSBT × Nat × PStream) :=
  if p.status = .failed ∨ p.status = .ub then return (p, 0, s)
  else do
    let p ← p.start
    match PSBT.readMagic (PSBT.magic.drop p.bytesParsed) 0 s with
    | (false, br, s) => return p.finish .failed br s
    | (true, br, s) => readGlobal junk p br s

end HPSBT

end UB
