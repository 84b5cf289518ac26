import Verif.Spec.SigHash
import Verif.Spec.Point
import Verif.Spec.Der

/-
BIP 174 (version 0): partially signed transactions, as a list of key-value maps, and the fields the library knows.
-/

namespace UB.Spec

/-- A key-value pair; keys of well-formed pairs are not empty. -/
abbrev Pair := Bytes × Bytes

def pairBytes (p : Pair) : Bytes := varBytes p.1 ++ varBytes p.2

/-- A map: its pairs, then an empty key. -/
def mapBytes (m : List Pair) : Bytes := m.flatMap pairBytes ++ [0]

def mapsBytes (ms : List (List Pair)) : Bytes := ms.flatMap mapBytes

/-- "psbt" and 0xff. -/
def psbtMagic : Bytes := [0x70, 0x73, 0x62, 0x74, 0xff]

/-- A PSBT whose global map starts with the unsigned transaction `txb`; `globals` are the other global pairs, and one
map for each input and each output follows. -/
def psbtBytes (txb : Bytes) (globals : List Pair) (ms : List (List Pair)) : Bytes :=
  psbtMagic ++ pairBytes ([0x00], txb) ++ mapBytes globals ++ mapsBytes ms

/-- A derivation path under a master key. -/
structure KeyOrigin where
  compressed : Bool
  point : Pt
  fingerprint : Bytes
  path : List Nat

/-- A partial signature. -/
structure SigEntry where
  compressed : Bool
  point : Pt
  r : Nat
  s : Nat
  der : Bytes
  type : UInt8

/-- Fields of an input map. -/
inductive InField where
  /-- the previous transaction (key 00) with its serialization -/
  | prevTx (t : Transaction)
  /-- the output that is spent (key 01) -/
  | utxo (o : Out)
  | partialSig (g : SigEntry)
  | redeemScript (s : Bytes)
  | witnessScript (s : Bytes)
  | origin (o : KeyOrigin)
  /-- any other pair -/
  | other (p : Pair)

/-- Fields of an output map. -/
inductive OutField where
  | redeemScript (s : Bytes)
  | witnessScript (s : Bytes)
  | origin (o : KeyOrigin)
  | other (p : Pair)

def originValue (o : KeyOrigin) : Bytes := o.fingerprint ++ o.path.flatMap (leBytes 4)

def InField.pair : InField → Pair
  | .prevTx t => ([0x00], txBytes t)
  | .utxo o => ([0x01], outBytes o)
  | .partialSig g => (0x02 :: secOf g.compressed g.point, g.der ++ [g.type])
  | .redeemScript s => ([0x04], s)
  | .witnessScript s => ([0x05], s)
  | .origin o => (0x06 :: secOf o.compressed o.point, originValue o)
  | .other p => p

def OutField.pair : OutField → Pair
  | .redeemScript s => ([0x00], s)
  | .witnessScript s => ([0x01], s)
  | .origin o => (0x02 :: secOf o.compressed o.point, originValue o)
  | .other p => p

/-- The output an input field tells about, for the input with outpoint index `n`. -/
def InField.spent (n : Nat) : InField → Option Out
  | .prevTx t => t.outs[n]?
  | .utxo o => some o
  | _ => none

def InField.sig : InField → Option SigEntry
  | .partialSig g => some g
  | _ => none

def InField.redeem : InField → Option Bytes
  | .redeemScript s => some s
  | _ => none

def InField.witness : InField → Option Bytes
  | .witnessScript s => some s
  | _ => none

def InField.key : InField → Option KeyOrigin
  | .origin o => some o
  | _ => none

def OutField.redeem : OutField → Option Bytes
  | .redeemScript s => some s
  | _ => none

def OutField.witness : OutField → Option Bytes
  | .witnessScript s => some s
  | _ => none

def OutField.key : OutField → Option KeyOrigin
  | .origin o => some o
  | _ => none

/-- The last of the values given by the fields. -/
def lastOf {α β : Type} (f : α → Option β) (fs : List α) : Option β := (fs.filterMap f).getLast?

end UB.Spec
