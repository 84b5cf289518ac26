import Verif.Model.TxSign
import Verif.Model.TxBuild
import Verif.Model.Strings

/-
Model of the program that makes a payment with the functions of the library: an input for each output to be spent, the outputs, and a signature for each input.
-/

namespace UB
namespace Payment

/-- How the output to be spent pays to the key: to its hash, to a script hash of the witness program of its hash, to that witness program. -/
inductive Kind where
  | legacy | nested | segwit
deriving DecidableEq, Repr

/-- An output to be spent, as the caller knows it: the transaction it is in, its number there, its amount, the key, and the sequence number to be used. -/
structure Coin where
  source : Tx
  n : UInt32
  amount : UInt64
  key : PrivKey
  kind : Kind
  seq : UInt32

/-- The caller's `tx.addInput(TxIn(source.txid(), n, seq))` for each of them (Transaction.cpp:601-613, 45-58; `txid` as a String, Transaction.cpp:589-593). -/
def addCoins (t : Tx) : List Coin → C Tx
  | [] => .ok t
  | c :: cs => do
    let id ← c.source.txidString
    let i ← TxIn.ofText id c.n c.seq
    addCoins (t.addInput i).1 cs

/-- The caller's `tx.addOutput(out)` for each output (Transaction.cpp:614-626). -/
def addOuts (t : Tx) (outs : List TxOut) : Tx := outs.foldl (fun t o => (t.addOutput o).1) t

/-- The caller's choice of the signing function: `signInput(idx, key)` (Bitcoin.h:726-728) or `signSegwitInput(idx, key, amount, type)` (Bitcoin.h:738-740). -/
def signCoin (t : Tx) (idx : UInt8) (c : Coin) (rnd : Nat → BN × BN) : C (Tx × Sig) :=
  match c.kind with
  | .legacy => t.signInputKey idx c.key rnd
  | .nested => t.signSegwitInputKey idx c.key c.amount .p2sh_p2wpkh rnd
  | .segwit => t.signSegwitInputKey idx c.key c.amount .p2wpkh rnd

/-- Signing the inputs from number `i` on, one after the other; `rnd i` are the random draws during the call for input `i`. -/
def signFrom (rnd : Nat → Nat → BN × BN) (t : Tx) (i : Nat) : List Coin → C Tx
  | [] => .ok t
  | c :: cs => do
    let (t, _) ← signCoin t (UInt8.ofNat i) c (rnd i)
    signFrom rnd t (i + 1) cs

/-- The transaction before it is signed. -/
def unsigned (version locktime : UInt32) (coins : List Coin) (outs : List TxOut) : C Tx := do
  let t ← addCoins { version, locktime } coins
  return addOuts t outs

/-- The whole payment. -/
def pay (version locktime : UInt32) (coins : List Coin) (outs : List TxOut) (rnd : Nat → Nat → BN × BN) : C Tx := do
  let t ← unsigned version locktime coins outs
  signFrom rnd t 0 coins

end Payment
end UB
