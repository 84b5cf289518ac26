import Verif.Model.Transaction
import Verif.Spec.Wire
import Mathlib.Data.List.Forall2

/-
What it means for a library object to hold given data.  Parsing state (`status`, `bytesParsed`,
`lenLen`, ...) is not constrained.
-/

namespace UB

open Spec

/-- The script holds the bytes `d`. -/
def Script.Holds (sc : Script) (d : Bytes) : Prop := sc.scriptLen = d.length ∧ sc.arr = d

/-- The witness holds the stack `items`. -/
def Witness.Holds (w : Witness) (items : List Bytes) : Prop :=
  w.numElements = items.length ∧ w.arr = items.flatMap varBytes

/-- Fields of an input other than its witness. -/
structure TxIn.HoldsBody (t : TxIn) (i : In) : Prop where
  hash : t.hash = i.prevHash
  hash_len : t.hash.length = 32
  index : t.outputIndex.toNat = i.prevIndex
  script : t.scriptSig.Holds i.script
  sequence : t.sequence.toNat = i.sequence

structure TxIn.Holds (t : TxIn) (i : In) : Prop where
  body : t.HoldsBody i
  witness : t.witness.Holds i.witness

structure TxOut.Holds (t : TxOut) (o : Out) : Prop where
  amount : t.amount.toNat = o.amount
  script : t.scriptPubkey.Holds o.script

/-- Everything but the witnesses. -/
structure Tx.HoldsBody (t : Tx) (x : Transaction) : Prop where
  version : t.version.toNat = x.version
  ins : List.Forall₂ TxIn.HoldsBody t.txIns x.ins
  outs : List.Forall₂ TxOut.Holds t.txOuts x.outs
  locktime : t.locktime.toNat = x.locktime

structure Tx.Holds (t : Tx) (x : Transaction) : Prop where
  version : t.version.toNat = x.version
  ins : List.Forall₂ TxIn.Holds t.txIns x.ins
  outs : List.Forall₂ TxOut.Holds t.txOuts x.outs
  locktime : t.locktime.toNat = x.locktime

/-- Sizes for which the code's one-byte counts are exact. -/
structure Spec.SmallTx (x : Transaction) : Prop where
  ins : x.ins.length < 253
  outs : x.outs.length < 253
  inScripts : ∀ i ∈ x.ins, i.script.length < 2 ^ 64
  outScripts : ∀ o ∈ x.outs, o.script.length < 2 ^ 64
  stacks : ∀ i ∈ x.ins, i.witness.length < 253
  items : ∀ i ∈ x.ins, ∀ e ∈ i.witness, e.length < 2 ^ 64

end UB
