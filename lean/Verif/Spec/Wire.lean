import Verif.Spec.Ints

/-
Specification: the Bitcoin wire format of scripts, witnesses and transactions, written
independently of the library's code.
-/

namespace UB.Spec

/-- A byte string preceded by its length. -/
def varBytes (s : Bytes) : Bytes := compactSize s.length ++ s

/-- A witness stack: number of items, then the items. -/
def witnessBytes (items : List Bytes) : Bytes := compactSize items.length ++ items.flatMap varBytes

/-- A transaction input with its witness. -/
structure In where
  prevHash : Bytes
  prevIndex : Nat
  script : Bytes
  sequence : Nat
  witness : List Bytes
deriving DecidableEq, Repr

structure Out where
  amount : Nat
  script : Bytes
deriving DecidableEq, Repr

structure Transaction where
  version : Nat
  ins : List In
  outs : List Out
  locktime : Nat
deriving DecidableEq, Repr

def inBytes (i : In) : Bytes := i.prevHash ++ leBytes 4 i.prevIndex ++ varBytes i.script ++ leBytes 4 i.sequence

def outBytes (o : Out) : Bytes := leBytes 8 o.amount ++ varBytes o.script

/-- Serialization without witnesses (what the txid commits to). -/
def legacyBytes (t : Transaction) : Bytes :=
  leBytes 4 t.version ++ compactSize t.ins.length ++ t.ins.flatMap inBytes ++
  compactSize t.outs.length ++ t.outs.flatMap outBytes ++ leBytes 4 t.locktime

/-- Serialization with marker, flag and witnesses (BIP 144). -/
def segwitBytes (t : Transaction) : Bytes :=
  leBytes 4 t.version ++ [0x00, 0x01] ++ compactSize t.ins.length ++ t.ins.flatMap inBytes ++
  compactSize t.outs.length ++ t.outs.flatMap outBytes ++
  t.ins.flatMap (fun i => witnessBytes i.witness) ++ leBytes 4 t.locktime

/-- BIP 144: the extended format is used exactly when some input has a witness. -/
def hasWitness (t : Transaction) : Prop := ∃ i ∈ t.ins, i.witness ≠ []

instance (t : Transaction) : Decidable (hasWitness t) := by unfold hasWitness; infer_instance

def txBytes (t : Transaction) : Bytes := if hasWitness t then segwitBytes t else legacyBytes t

/-- Bytes `offset, offset+1, ...` of a serialization, at most `cap` of them (`none`: no limit). -/
def window (cap : Option Nat) (offset : Nat) (full : Bytes) : Bytes :=
  match cap with
  | none => full.drop offset
  | some c => (full.drop offset).take c

end UB.Spec
