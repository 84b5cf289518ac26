import Verif.Model.Base

/-
Specification: standard output scripts and how the script interpreter splits a script.
-/

namespace UB.Spec

def p2pkhScript (h : Bytes) : Bytes := [0x76, 0xa9, 20] ++ h ++ [0x88, 0xac]
def p2shScript (h : Bytes) : Bytes := [0xa9, 20] ++ h ++ [0x87]
def p2wpkhScript (h : Bytes) : Bytes := [0x00, 20] ++ h
def p2wshScript (h : Bytes) : Bytes := [0x00, 32] ++ h

/-- One step of the interpreter: an opcode, or pushed data. -/
inductive Op
  | code (b : UInt8)
  | push (data : Bytes)
deriving DecidableEq, Repr

/-- `n` bytes of data from the front. -/
def takePush (n : Nat) (rest : Bytes) : Option (Op × Bytes) :=
  if n ≤ rest.length then some (.push (rest.take n), rest.drop n) else none

/-- Bitcoin's `GetScriptOp`: the first operation of a script and what follows; `none` if truncated. -/
def getOp : Bytes → Option (Op × Bytes)
  | [] => none
  | b :: rest =>
    if b ≤ 75 then takePush b.toNat rest
    else if b = 76 then
      match rest with
      | n :: rest => takePush n.toNat rest
      | _ => none
    else if b = 77 then
      match rest with
      | n0 :: n1 :: rest => takePush (n0.toNat + 256 * n1.toNat) rest
      | _ => none
    else if b = 78 then
      match rest with
      | n0 :: n1 :: n2 :: n3 :: rest => takePush (n0.toNat + 256 * n1.toNat + 65536 * n2.toNat + 16777216 * n3.toNat) rest
      | _ => none
    else some (.code b, rest)

/-- `m`-of-`n` multisignature script (BIP 11). -/
def multisigScript (m : Nat) (keys : List Bytes) : Bytes :=
  [UInt8.ofNat (80 + m)] ++ (keys.flatMap fun k => UInt8.ofNat k.length :: k) ++ [UInt8.ofNat (80 + keys.length), 0xae]

end UB.Spec
