import Verif.Spec.Wire

/-
A declarative one-pass reader for the wire format, used as the intermediate specification of
the resumable parsers: what is known after a given sequence of bytes.
-/

namespace UB.Spec

/-- After reading some bytes: a complete item and the bytes behind it, or more bytes are needed,
or the bytes cannot be accepted. -/
inductive Outcome (β : Type) where
  | ok (x : β) (rest : Bytes)
  | more
  | bad
deriving DecidableEq, Repr

/-- Number of bytes which follow the first byte of a CompactSize. -/
def extraBytes (b : UInt8) : Nat :=
  if b < 0xfd then 0 else if b = 0xfd then 2 else if b = 0xfe then 4 else 8

/-- The number given by first byte `b` and the bytes `r` behind it. -/
def prefixValue (b : UInt8) (r : Bytes) : Nat :=
  if extraBytes b = 0 then b.toNat else leValue (r.take (extraBytes b))

/-- Length-prefixed byte string. Prefixes which are not the shortest are not accepted, nor are lengths from
2^31 (in particular 8-byte lengths, noticed at the fifth length byte or at a fourth length byte of 0x80 or more). -/
def readVar : Bytes → Outcome Bytes
  | [] => .more
  | b :: r =>
    if b = 0xff then (if r.length < 4 ∨ r.length = 4 ∧ leValue r < 2 ^ 31 then .more else .bad)
    else
      let k := extraBytes b
      if r.length < k then .more
      else
        let n := prefixValue b r
        if (compactSize n).length ≠ k + 1 ∨ 2 ^ 31 ≤ n then .bad
        else if (r.drop k).length < n then .more
        else .ok ((r.drop k).take n) ((r.drop k).drop n)

/-- An input without witness. -/
def readIn (p : Bytes) : Outcome In :=
  if p.length < 36 then .more
  else match readVar (p.drop 36) with
    | .more => .more
    | .bad => .bad
    | .ok d r =>
      if r.length < 4 then .more
      else .ok ⟨p.take 32, leValue ((p.drop 32).take 4), d, leValue (r.take 4), []⟩ (r.drop 4)

def readOut (p : Bytes) : Outcome Out :=
  if p.length < 8 then .more
  else match readVar (p.drop 8) with
    | .more => .more
    | .bad => .bad
    | .ok d r => .ok ⟨leValue (p.take 8), d⟩ r

/-- `n` items one after the other. -/
def readMany {β : Type} (f : Bytes → Outcome β) : Nat → Bytes → Outcome (List β)
  | 0, p => .ok [] p
  | n + 1, p => match f p with
    | .more => .more
    | .bad => .bad
    | .ok x r => match readMany f n r with
      | .more => .more
      | .bad => .bad
      | .ok xs r => .ok (x :: xs) r

/-- A witness stack with a one-byte count. -/
def readWitness : Bytes → Outcome (List Bytes)
  | [] => .more
  | b :: r => if b < 0xfd then readMany readVar b.toNat r else .bad

/-- Locktime, the last field. -/
def readLocktime (version : Nat) (ins : List In) (outs : List Out) (p : Bytes) : Outcome Transaction :=
  if p.length < 4 then .more else .ok ⟨version, ins, outs, leValue (p.take 4)⟩ (p.drop 4)

/-- Inputs with their witnesses. -/
def withWitnesses (ins : List In) (ws : List (List Bytes)) : List In :=
  List.zipWith (fun i w => { i with witness := w }) ins ws

/-- What follows the outputs. -/
def readTail (segwit : Bool) (version : Nat) (ins : List In) (outs : List Out) (p : Bytes) : Outcome Transaction :=
  if segwit then
    match readMany readWitness ins.length p with
    | .more => .more
    | .bad => .bad
    | .ok ws r => readLocktime version (withWitnesses ins ws) outs r
  else readLocktime version ins outs p

/-- What follows the inputs: outputs behind a one-byte count. -/
def readAfterIns (segwit : Bool) (version : Nat) (ins : List In) : Bytes → Outcome Transaction
  | [] => .more
  | o :: p =>
    match readMany readOut o.toNat p with
    | .more => .more
    | .bad => .bad
    | .ok outs r => readTail segwit version ins outs r

/-- What follows the input count. -/
def readAfterCount (segwit : Bool) (version n : Nat) (p : Bytes) : Outcome Transaction :=
  match readMany readIn n p with
  | .more => .more
  | .bad => .bad
  | .ok ins r => readAfterIns segwit version ins r

/-- A transaction with one-byte counts: `n ≠ 0` inputs follow the version, or marker 0, flag 1 and `n` inputs
with witnesses behind the outputs. -/
def readTx (p : Bytes) : Outcome Transaction :=
  if p.length < 4 then .more
  else match p.drop 4 with
    | [] => .more
    | c :: q =>
      if c ≠ 0 then readAfterCount false (leValue (p.take 4)) c.toNat q
      else match q with
        | [] => .more
        | f :: q =>
          if f ≠ 1 then .bad
          else match q with
            | [] => .more
            | n :: q => readAfterCount true (leValue (p.take 4)) n.toNat q

end UB.Spec
