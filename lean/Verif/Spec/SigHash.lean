import Verif.Spec.Wire
import Verif.Spec.Ripemd

/-
Specification: transaction ids (BIP 141) and signature hashes (the original algorithm of
Bitcoin's `SignatureHash`, and BIP 143).
-/

namespace UB.Spec

/-- Transaction id in display order. -/
def txid (t : Transaction) : Bytes := (hash256 (legacyBytes t)).reverse

/-- BIP 141: the witness id hashes the serialization used on the wire, so it is the txid when
there is no witness. -/
def wtxid (t : Transaction) : Bytes := (hash256 (txBytes t)).reverse

def isNone (ty : Nat) : Bool := ty % 32 = 2
def isSingle (ty : Nat) : Bool := ty % 32 = 3
def anyoneCanPay (ty : Nat) : Bool := ty / 128 % 2 = 1

/-- Inputs as seen by the signature of input `idx`. -/
def sigIns (ins : List In) (idx : Nat) (code : Bytes) (ty : Nat) : List In :=
  let all := ins.zipIdx.map fun (i, k) =>
    if k = idx then { i with script := code }
    else { i with script := [], sequence := if isNone ty ∨ isSingle ty then 0 else i.sequence }
  if anyoneCanPay ty then (all.drop idx).take 1 else all

/-- Outputs as seen by the signature of input `idx`. -/
def sigOuts (outs : List Out) (idx : Nat) (ty : Nat) : List Out :=
  if isNone ty then []
  else if isSingle ty then List.replicate idx { amount := 2 ^ 64 - 1, script := [] } ++ (outs.drop idx).take 1
  else outs

/-- What is hashed by the original signature hash (script code already without
OP_CODESEPARATOR). -/
def legacySigPreimage (t : Transaction) (idx : Nat) (code : Bytes) (ty : Nat) : Bytes :=
  legacyBytes { t with ins := sigIns t.ins idx code ty, outs := sigOuts t.outs idx ty } ++ leBytes 4 ty

/-- The original signature hash; an index without input, or SINGLE without matching output, signs
the number one. -/
def legacySigHash (t : Transaction) (idx : Nat) (code : Bytes) (ty : Nat) : Bytes :=
  if t.ins.length ≤ idx ∨ (isSingle ty ∧ t.outs.length ≤ idx) then 1 :: List.replicate 31 0
  else hash256 (legacySigPreimage t idx code ty)

def outpoint (i : In) : Bytes := i.prevHash ++ leBytes 4 i.prevIndex

/-- BIP 143 components. -/
def prevoutsBytes (t : Transaction) : Bytes := t.ins.flatMap outpoint
def sequencesBytes (t : Transaction) : Bytes := t.ins.flatMap fun i => leBytes 4 i.sequence
def outputsBytes (t : Transaction) : Bytes := t.outs.flatMap outBytes

/-- BIP 143 preimage for input `i = t.ins[idx]`. -/
def segwitSigPreimage (t : Transaction) (idx : Nat) (i : In) (code : Bytes) (amount ty : Nat) : Bytes :=
  leBytes 4 t.version ++
  (if anyoneCanPay ty then zeros 32 else hash256 (prevoutsBytes t)) ++
  (if anyoneCanPay ty ∨ isNone ty ∨ isSingle ty then zeros 32 else hash256 (sequencesBytes t)) ++
  outpoint i ++ varBytes code ++ leBytes 8 amount ++ leBytes 4 i.sequence ++
  (if isSingle ty then
    match t.outs[idx]? with
    | some o => hash256 (outBytes o)
    | none => zeros 32
   else if isNone ty then zeros 32
   else hash256 (outputsBytes t)) ++
  leBytes 4 t.locktime ++ leBytes 4 ty

def segwitSigHash (t : Transaction) (idx : Nat) (i : In) (code : Bytes) (amount ty : Nat) : Bytes :=
  hash256 (segwitSigPreimage t idx i code amount ty)

end UB.Spec
