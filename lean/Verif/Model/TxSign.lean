import Verif.Model.TxHash
import Verif.Model.Address
import Verif.Model.ECKey
import Verif.Model.Signature

/-
Model of signing transaction inputs: Transaction.cpp:698-754, Bitcoin.h:724-740, Script.cpp:455-469, 670-682.
Scripts and keys are passed by value; only the copy of the redeem script on entry is written out (further copies change nothing, `Script.copy_holds`).
-/

namespace UB

/-- `pubkey.sec(sec, sizeof(sec))`, `sec[65]`: Script.cpp:456-457, 671-672. -/
def ECPoint.secBytes (p : ECPoint) : C Bytes := do
  let (l, b) ← p.sec 65
  return b.take l

/-- `sig.der(der, sizeof(der))`, `der[75]`: Script.cpp:463-464, 677-678. -/
def Sig.derBytes75 (g : Sig) : C Bytes := do
  let (l, b) ← g.der (zeros 75)
  return b.take l

namespace Witness

/-- Script.cpp:670-675. -/
def pushKey (w : Witness) (key : ECPoint) : C Witness := do
  let sec ← key.secBytes
  let (w, _) ← w.push sec
  return w

/-- Script.cpp:676-682; `sigType` is an argument with default SIGHASH_ALL. -/
def pushSig (w : Witness) (g : Sig) (sigType : UInt8 := 1) : C Witness := do
  let der ← g.derBytes75
  let (w, _) ← w.push (der ++ [sigType])
  return w

end Witness

namespace Tx

/-- Transaction.cpp:705-711: the script for the input. -/
def inputScript (pk : PrivKey) (sig : Sig) (redeem : Script) : C Script := do
  let der ← sig.derBytes75
  let sc := (({} : Script).pushSig der 1).1
  let sec ← pk.pubKey.secBytes
  let sc := (sc.pushKey sec).1
  if redeem.type ≠ .p2pkh then do
    let (sc, _) ← sc.pushScript redeem
    return sc
  else return sc

/-- Transaction.cpp:713, 739, 742 `txIns[inputIndex].scriptSig = sc`; outside the array this is undefined. -/
def setScript (t : Tx) (i : Nat) (sc : Script) : C Tx :=
  match t.txIns[i]? with
  | none => .ub
  | some ti => .ok { t with txIns := t.txIns.set i { ti with scriptSig := ti.scriptSig.assign sc } }

/-- Transaction.cpp:751 `txIns[inputIndex].witness = w`. -/
def setWitness (t : Tx) (i : Nat) (w : Witness) : C Tx :=
  match t.txIns[i]? with
  | none => .ub
  | some ti => .ok { t with txIns := t.txIns.set i { ti with witness := ti.witness.assign w } }

/-- Transaction.cpp:698-716 `signInput(inputIndex, pk, redeemScript, sighash)`: the transaction and the signature returned. -/
def signInput (t : Tx) (inputIndex : UInt8) (pk : PrivKey) (redeemScript : Script) (sighash : UInt32) (rnd : Nat → BN × BN) : C (Tx × Sig) := do
  let redeem := redeemScript.copy
  let h ← t.sigHash inputIndex redeem sighash
  let sig ← pk.sign h rnd
  let sc ← inputScript pk sig redeem
  let t ← t.setScript inputIndex.toNat sc
  return (t, sig)

/-- Bitcoin.h:726-728 `signInput(inputIndex, pk)`. -/
def signInputKey (t : Tx) (inputIndex : UInt8) (pk : PrivKey) (rnd : Nat → BN × BN) : C (Tx × Sig) := do
  let sec ← pk.pubKey.secBytes
  t.signInput inputIndex pk (Script.ofKey sec .p2pkh) 1 rnd

/-- Transaction.cpp:720-726: the digest. -/
def segwitDigest (t : Tx) (inputIndex : UInt8) (pk : PrivKey) (redeem : Script) (amount : UInt64) (sighash : UInt32) : C Bytes :=
  if redeem.type = .p2wpkh then do
    let sec ← pk.pubKey.secBytes
    t.sigHashSegwit inputIndex (Script.ofKey sec .p2pkh) amount sighash
  else t.sigHashSegwit inputIndex redeem amount sighash

/-- Transaction.cpp:731-743: the script for the input. -/
def segwitScript (redeem : Script) (type : ScriptType) : C Script :=
  if type = .p2sh_p2wpkh ∨ type = .p2sh_p2wsh then do
    let (sc, _) ← (({} : Script).pushScript (if redeem.type = .p2wpkh then redeem else Script.ofScript redeem .p2wsh))
    return sc
  else .ok {}

/-- Transaction.cpp:745-750: the witness. -/
def segwitWitness (pk : PrivKey) (sig : Sig) (redeem : Script) : C Witness := do
  let w ← ({} : Witness).pushSig sig
  let w ← w.pushKey pk.pubKey
  if redeem.type ≠ .p2wpkh then do
    let (w, _) ← w.pushScript redeem
    return w
  else return w

/-- Transaction.cpp:717-754 `signSegwitInput(inputIndex, pk, redeemScript, amount, type, sighash)`. -/
def signSegwitInput (t : Tx) (inputIndex : UInt8) (pk : PrivKey) (redeemScript : Script) (amount : UInt64) (type : ScriptType) (sighash : UInt32)
    (rnd : Nat → BN × BN) : C (Tx × Sig) := do
  let redeem := redeemScript.copy
  let h ← t.segwitDigest inputIndex pk redeem amount sighash
  let sig ← pk.sign h rnd
  let sc ← segwitScript redeem type
  let t ← t.setScript inputIndex.toNat sc
  let w ← segwitWitness pk sig redeem
  let t ← t.setWitness inputIndex.toNat w
  return (t, sig)

/-- Bitcoin.h:738-740 `signSegwitInput(inputIndex, pk, amount, type)`. -/
def signSegwitInputKey (t : Tx) (inputIndex : UInt8) (pk : PrivKey) (amount : UInt64) (type : ScriptType) (rnd : Nat → BN × BN) : C (Tx × Sig) := do
  let sec ← pk.pubKey.secBytes
  t.signSegwitInput inputIndex pk (Script.ofKey sec .p2wpkh) amount type 1 rnd

end Tx
end UB
