import Verif.Spec.Wire

/-
Partially signed transactions of the Electrum wallet, version 0: a magic string, then the transaction in which every missing signature is replaced by
what is needed to make it.
-/

namespace UB.Spec

/-- What a document says about an input: the amount that is spent, seven bytes of encoding, the 78 bytes of an extended public key, and two steps of
derivation from there. -/
structure ElectrumKey where
  amount : Nat
  encoding : Bytes
  xpub : Bytes
  change : Nat
  index : Nat

/-- `EPTF`, 0xff, version 0. -/
def electrumMagic : Bytes := [0x45, 0x50, 0x54, 0x46, 0xff, 0x00]

/-- The place of a witness: an impossible number of elements, 2^32 - 1, then the data. -/
def electrumWitness (k : ElectrumKey) : Bytes :=
  [0xfe, 0xff, 0xff, 0xff, 0xff] ++ (leBytes 8 k.amount ++ (k.encoding ++ (k.xpub ++ (leBytes 2 k.change ++ leBytes 2 k.index))))

/-- Sizes of the fields. -/
structure ElectrumKey.Ok (k : ElectrumKey) : Prop where
  amount : k.amount < 2 ^ 64
  encoding : k.encoding.length = 7
  xpub : k.xpub.length = 78
  change : k.change < 2 ^ 16
  index : k.index < 2 ^ 16

/-- A segwit document. -/
def electrumSegwit (x : Transaction) (ks : List ElectrumKey) : Bytes :=
  electrumMagic ++ (leBytes 4 x.version ++ ([0x00, 0x01] ++ (compactSize x.ins.length ++ (x.ins.flatMap inBytes ++ (compactSize x.outs.length ++
    (x.outs.flatMap outBytes ++ (ks.flatMap electrumWitness ++ leBytes 4 x.locktime)))))))

/-- The place of a signature script: five bytes (pushes and a marker), the extended key and the two steps. -/
def electrumScript (marker : Bytes) (k : ElectrumKey) : Bytes := marker ++ (k.xpub ++ (leBytes 2 k.change ++ leBytes 2 k.index))

/-- A document without segwit inputs. -/
def electrumLegacy (x : Transaction) (ks : List (Bytes × ElectrumKey)) : Bytes :=
  electrumMagic ++ legacyBytes { x with ins := x.ins.zipWith (fun i k => { i with script := electrumScript k.1 k.2 }) ks }

/-- A segwit document of `size` bytes is cut at position `c`, inside the length of the script of the last output.  (Behind the outputs there are 102 bytes for
each input and the locktime.) -/
def CutInLength (x : Transaction) (size c : Nat) : Prop :=
  ∃ l, x.outs.getLast? = some l ∧ c + (102 * x.ins.length + 4) + l.script.length < size ∧
    size < c + (102 * x.ins.length + 4) + l.script.length + (compactSize l.script.length).length

end UB.Spec
