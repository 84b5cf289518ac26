import Verif.Spec.Script
import Verif.Spec.SigHash
import Verif.Spec.Ecdsa
import Verif.Spec.Der
import Verif.Spec.Point

/-
Script verification of a transaction input (Bitcoin's `VerifyScript` with P2SH, BIP 66 and version 0 witness programs), restricted to the opcodes
that scripts with one key and multisignature scripts need: pushes, small numbers, DUP, DROP, EQUAL, EQUALVERIFY, HASH160, SHA256, CHECKSIG,
CHECKSIGVERIFY, CHECKMULTISIG (with BIP 147).  A script with another opcode fails here, and so does an input script that does not only push.  (OP_CODESEPARATOR is not among the opcodes.  Left out are the limits on sizes and
on the number of operations, and the removal of a signature from the script it is checked against, which concerns scripts that contain their own
signature.)
-/

namespace UB.Spec

/-- The stack, top first.  Elements are true unless they are zero or negative zero. -/
def truthy (b : Bytes) : Bool := !(b.all (· == 0) || (b.getLast? == some 0x80 && b.dropLast.all (· == 0)))

/-- A number of keys or signatures (as `m` and `n` of `m`-of-`n`). -/
def smallNumber : Bytes → Option Nat
  | [] => some 0
  | [b] => if 1 ≤ b ∧ b ≤ 20 then some b.toNat else none
  | _ => none

/-- The loop of CHECKMULTISIG, over signatures and keys from the last one to the first: each signature must fit a key, in the same order. -/
def multiOk (chk : Bytes → Bytes → Bool) : List Bytes → List Bytes → Bool
  | [], _ => true
  | _ :: _, [] => false
  | s :: ss, k :: ks => if chk s k then multiOk chk ss ks else multiOk chk (s :: ss) ks

/-- CHECKMULTISIG: the number of keys, the keys, the number of signatures, the signatures, and one element more, which must be empty (BIP 147). -/
def execMulti (chk : Bytes → Bytes → Bool) : List Bytes → Option (List Bytes)
  | [] => none
  | a :: st =>
    match smallNumber a, st.drop ((smallNumber a).getD 0) with
    | some n, b :: st' =>
      match smallNumber b, st'.drop ((smallNumber b).getD 0) with
      | some m, [] :: rest => if n < m then none else some ((if multiOk chk (st'.take m) (st.take n) then [1] else []) :: rest)
      | _, _ => none
    | _, _ => none

/-- One operation; `chk sig key` is the result of the signature check. -/
def execOp (chk : Bytes → Bytes → Bool) : Op → List Bytes → Option (List Bytes)
  | .push d, st => some (d :: st)
  | .code c, st =>
    if 0x51 ≤ c ∧ c ≤ 0x60 then some ([c - 0x50] :: st)
    else match c.toNat, st with
    | 0x75, _ :: st => some st
    | 0x76, a :: st => some (a :: a :: st)
    | 0x87, a :: b :: st => some ((if a = b then [1] else []) :: st)
    | 0x88, a :: b :: st => if a = b then some st else none
    | 0xa8, a :: st => some (sha256 a :: st)
    | 0xa9, a :: st => some (hash160 a :: st)
    | 0xac, key :: sig :: st => some ((if chk sig key then [1] else []) :: st)
    | 0xad, key :: sig :: st => if chk sig key then some st else none
    | 0xae, st => execMulti chk st
    | _, _ => none

/-- Run a script; every operation takes at least one byte, so its length bounds the number of operations. -/
def exec (chk : Bytes → Bytes → Bool) : Nat → Bytes → List Bytes → Option (List Bytes)
  | _, [], st => some st
  | 0, _ :: _, _ => none
  | n + 1, script, st =>
    match getOp script with
    | none => none
    | some (op, rest) =>
      match execOp chk op st with
      | none => none
      | some st => exec chk n rest st

def run (chk : Bytes → Bytes → Bool) (script : Bytes) (st : List Bytes) : Option (List Bytes) := exec chk script.length script st

/-- A signature with its hash type is valid for a key and the digest of its type. -/
def SigOk (digest : Nat → Bytes) (sig key : Bytes) : Prop :=
  ∃ der ty r s c P, sig = der ++ [ty] ∧ DerSig der r s ∧ key = secOf c P ∧ P ≠ 0 ∧ EcdsaValid P (beNat (digest ty.toNat)) r s

open Classical in
/-- The check of signatures in a script from before segwit. -/
noncomputable def legacyCheck (x : Transaction) (i : Nat) (code sig key : Bytes) : Bool := decide (SigOk (legacySigHash x i code) sig key)

open Classical in
/-- The check of signatures in a witness program. -/
noncomputable def segwitCheck (x : Transaction) (i : Nat) (inp : In) (code : Bytes) (amount : Nat) (sig key : Bytes) : Bool :=
  decide (SigOk (segwitSigHash x i inp code amount) sig key)

/-- A script leaves a true value on top. -/
def Succeeds (chk : Bytes → Bytes → Bool) (script : Bytes) (st : List Bytes) : Prop := ∃ t st', run chk script st = some (t :: st') ∧ truthy t = true

/-- A witness program must leave a true value and nothing else. -/
def SucceedsClean (chk : Bytes → Bytes → Bool) (script : Bytes) (st : List Bytes) : Prop := ∃ t, run chk script st = some [t] ∧ truthy t = true

/-- A script that only pushes data, in the order of execution. -/
inductive Pushes : Bytes → List Bytes → Prop
  | nil : Pushes [] []
  | cons {s rest : Bytes} {d : Bytes} {ds : List Bytes} (h : getOp s = some (.push d, rest)) (t : Pushes rest ds) : Pushes s (d :: ds)

/-- BIP 141: a version and one push of 2 to 40 bytes. -/
def IsWitnessProgram (s : Bytes) : Prop :=
  ∃ v p, s = v :: UInt8.ofNat p.length :: p ∧ 2 ≤ p.length ∧ p.length ≤ 40 ∧ (v = 0 ∨ (0x51 ≤ v ∧ v ≤ 0x60))

/-- BIP 16. -/
def IsP2sh (s : Bytes) : Prop := ∃ h, h.length = 20 ∧ s = p2shScript h

/-- Version 0 witness programs (BIP 141): key hash and script hash. -/
inductive WitnessOk (x : Transaction) (i : Nat) (inp : In) (amount : Nat) : Bytes → Prop
  | key (h sig key : Bytes) (hl : h.length = 20) (hw : inp.witness = [sig, key])
      (hs : SucceedsClean (segwitCheck x i inp (p2pkhScript h) amount) (p2pkhScript h) [key, sig]) : WitnessOk x i inp amount (p2wpkhScript h)
  | script (items : List Bytes) (script : Bytes) (hw : inp.witness = items ++ [script])
      (hs : SucceedsClean (segwitCheck x i inp script amount) script items.reverse) : WitnessOk x i inp amount (p2wshScript (sha256 script))

/-- Input `i` of `x` may spend an output with script `spk` and amount `amount`. -/
inductive InputOk (x : Transaction) (i : Nat) (amount : Nat) : Bytes → Prop
  | bare (spk : Bytes) (inp : In) (ds : List Bytes) (hi : x.ins[i]? = some inp) (hp : Pushes inp.script ds) (hw : inp.witness = [])
      (h1 : ¬ IsWitnessProgram spk) (h2 : ¬ IsP2sh spk) (hs : Succeeds (legacyCheck x i spk) spk ds.reverse) : InputOk x i amount spk
  | native (spk : Bytes) (inp : In) (hi : x.ins[i]? = some inp) (h0 : inp.script = []) (hs : WitnessOk x i inp amount spk) : InputOk x i amount spk
  | p2sh (r : Bytes) (inp : In) (ds : List Bytes) (hi : x.ins[i]? = some inp) (hp : Pushes inp.script (ds ++ [r])) (hw : inp.witness = [])
      (h1 : ¬ IsWitnessProgram r) (hs : Succeeds (legacyCheck x i r) r ds.reverse) : InputOk x i amount (p2shScript (hash160 r))
  | nested (r : Bytes) (inp : In) (hi : x.ins[i]? = some inp) (h0 : inp.script = UInt8.ofNat r.length :: r) (hs : WitnessOk x i inp amount r) :
      InputOk x i amount (p2shScript (hash160 r))

end UB.Spec
