import Verif.Model.TxSign

/-
Model of `multi` on key objects, and of the program that puts the signatures of several owners together with the functions of the library.
-/

namespace UB

/-- The keys as `push(pubkey)` serializes them (Script.cpp:36-44, 455-457). -/
def secsOf : List ECPoint → C (List Bytes)
  | [] => .ok []
  | k :: ks => do
    let s ← k.secBytes
    let ss ← secsOf ks
    return s :: ss

/-- Script.cpp:34-50 `multi(threshold, pubkeys, pubkeys_len)`.  The keys are serialized before the numbers are checked, which makes no difference to the result. -/
def multiOf (threshold : UInt8) (keys : List ECPoint) : C Script := do
  let secs ← secsOf keys
  return multi threshold secs

namespace Vault

/-- `w.push(sig)` for each signature: Script.cpp:676-682. -/
def pushSigs (w : Witness) : List Sig → C Witness
  | [] => .ok w
  | g :: gs => do
    let w ← w.pushSig g
    pushSigs w gs

/-- The witness of a multisignature program, made by the caller: an empty element (`push(data, 0)`, Script.cpp:651-669), the signatures, the script
(Script.cpp:683-691). -/
def witness (gs : List Sig) (sc : Script) : C Witness := do
  let (w, _) ← ({} : Witness).push []
  let w ← pushSigs w gs
  let (w, _) ← w.pushScript sc
  return w

/-- The caller's assignment to `txIns[i].witness`. -/
def finishNative (sc : Script) (t : Tx) (i : Nat) (gs : List Sig) : C Tx := do
  let w ← witness gs sc
  t.setWitness i w

/-- The caller's assignments to `txIns[i].scriptSig` (the push of the program, Script.cpp:470-484) and `txIns[i].witness`. -/
def finishNested (sc : Script) (t : Tx) (i : Nat) (gs : List Sig) : C Tx := do
  let w ← witness gs sc
  let (s, _) ← ({} : Script).pushScript (wsh sc)
  let t ← t.setScript i s
  t.setWitness i w

/-- `s.push(sig)` for each signature: Script.cpp:462-469. -/
def scriptSigs (s : Script) : List Sig → C Script
  | [] => .ok s
  | g :: gs => do
    let der ← g.derBytes75
    scriptSigs (s.pushSig der 1).1 gs

/-- The input script of a multisignature script hash, made by the caller: `push(0)`, the signatures, `push(script)`. -/
def finishLegacy (sc : Script) (t : Tx) (i : Nat) (gs : List Sig) : C Tx := do
  let s ← scriptSigs (({} : Script).pushByte 0).1 gs
  let (s, _) ← s.pushScript sc
  t.setScript i s

end Vault
end UB
