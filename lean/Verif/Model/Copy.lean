import Verif.Model.PSBT
import Verif.Model.Electrum

/-
Copy constructors and assignment operators of the classes that own arrays of other objects: Transaction.cpp:230-254 (212-229 is in
Model/Transaction), PSBT.cpp:530-568 and 740-815, Electrum.cpp:3-26.

The arrays are lists here, so that sharing of memory between an object and its copy cannot be expressed (for `Script` and `Witness` see
Model/Heap); what can be seen is which members a copy has, and that arrays which do not exist are read. Copying a script in the middle of
its length prefix, undefined by C75, is not marked as such here. Arrays of length 0 that nobody frees are not modelled.
-/

namespace UB

/-- Transaction.cpp:230-254 `operator=` between different objects: nothing of the old value is kept. -/
def Tx.assign (_ other : Tx) : Tx := other.copy

/-- PSBT.cpp:541-547 and the like: the members and the path; of an entry which has not been initialised the length of the path is not known. -/
def Derivation.copy (d : Derivation) : C Derivation := if d.ready then .ok d else .ub

/-- PSBT.cpp:538-553: one input. -/
def InMeta.copy (m : InMeta) : C InMeta := do
  let ds ← m.derivations.mapM Derivation.copy
  return { txOut := ({} : TxOut).assign m.txOut, derivations := ds, redeemScript := ({} : Script).assign m.redeemScript,
           witnessScript := ({} : Script).assign m.witnessScript, signatures := m.signatures }

/-- PSBT.cpp:555-567: one output. -/
def OutMeta.copy (m : OutMeta) : C OutMeta := do
  let ds ← m.derivations.mapM Derivation.copy
  return { derivations := ds, redeemScript := ({} : Script).assign m.redeemScript, witnessScript := ({} : Script).assign m.witnessScript }

/-- PSBT.cpp:536-567, 773-812: `tx`, `status` and the metadata into `self`. There must be metadata for each input and output. -/
def PSBT.take (self other : PSBT) : C PSBT :=
  if other.tx.txIns.length ≤ other.ins.length ∧ other.tx.txOuts.length ≤ other.outs.length then do
    let ins ← (other.ins.take other.tx.txIns.length).mapM InMeta.copy
    let outs ← (other.outs.take other.tx.txOuts.length).mapM OutMeta.copy
    return { self with tx := other.tx.copy, status := other.status, ins := ins, outs := outs }
  else .ub

/-- PSBT.cpp:530-568 copy constructor. -/
def PSBT.copy (other : PSBT) : C PSBT := PSBT.take {} other

/-- PSBT.cpp:740-815 `operator=` between different objects: the old metadata is given back first. -/
def PSBT.assign (self other : PSBT) : C PSBT := do
  self.release
  self.take other

/-- Electrum.cpp:6-9, 19-22: the metadata of the inputs, which must exist. -/
def ElectrumTx.takeMetas (other : ElectrumTx) : C (List ElectrumMeta) :=
  if other.tx.txIns.length ≤ other.metas.length then .ok (other.metas.take other.tx.txIns.length) else .ub

/-- Electrum.cpp:3-12 copy constructor: `is_segwit` is not copied. -/
def ElectrumTx.copy (other : ElectrumTx) : C ElectrumTx := do
  let ms ← other.takeMetas
  return { status := other.status, bytesParsed := other.bytesParsed, isSegwit := false, tx := other.tx.copy, metas := ms }

/-- Electrum.cpp:13-26 `operator=` between different objects: `is_segwit` is kept. -/
def ElectrumTx.assign (self other : ElectrumTx) : C ElectrumTx := do
  let ms ← other.takeMetas
  return { status := other.status, bytesParsed := other.bytesParsed, isSegwit := self.isSegwit, tx := other.tx.copy, metas := ms }

end UB
