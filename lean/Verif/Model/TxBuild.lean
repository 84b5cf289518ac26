import Verif.Model.Transaction
import Verif.Model.Address

/-
Model of the constructors of inputs and outputs with arguments: Transaction.cpp:37-71, Bitcoin.h:631-634 (`TxIn(prev_id, prev_index, sequence)` is in
Model/Transaction).  Texts are the characters before the terminating NUL.  `status` and `bytes_parsed` are set by the constructor of the base class
(BaseClasses.h:128).
-/

namespace UB

namespace TxIn

/-- Transaction.cpp:37-44 `TxIn(prev_id, prev_index, script, sequence)` with bytes; the script is passed by value. -/
def ofIdScript (prevId : Bytes) (idx : UInt32) (script : Script) (seq : UInt32) : TxIn :=
  { outputIndex := idx, sequence := seq, hash := prevId.reverse, scriptSig := ({} : Script).assign script.copy }

/-- Transaction.cpp:45-58 `TxIn(prev_id, prev_index, sequence)` with a text. -/
def ofText (text : Bytes) (idx seq : UInt32) : C TxIn :=
  if text.length < 64 then .ok {}
  else do
    let (_, arr) ← fromHex (text.take 64) (zeros 32)
    return { outputIndex := idx, sequence := seq, hash := arr.reverse }

/-- Transaction.cpp:59-71 `TxIn(prev_id, prev_index, script, sequence)` with a text; `junk` is what has been in memory where the member `hash` is, which is
not set if the text is short. -/
def ofTextScript (junk text : Bytes) (idx : UInt32) (script : Script) (seq : UInt32) : C TxIn :=
  if text.length < 64 then .ok { outputIndex := idx, sequence := seq, hash := junk }
  else do
    let (_, arr) ← fromHex (text.take 64) (zeros 32)
    return { outputIndex := idx, sequence := seq, hash := arr.reverse, scriptSig := ({} : Script).assign script.copy }

end TxIn

namespace TxOut

/-- Bitcoin.h:631-632 `TxOut(send_amount, outputScript)`, `TxOut(outputScript, send_amount)`. -/
def ofScript (amount : UInt64) (script : Script) : TxOut :=
  { amount := amount, scriptPubkey := ({} : Script).assign script.copy }

/-- Bitcoin.h:633-634 `TxOut(send_amount, address)`, `TxOut(address, send_amount)`; `Script(address)` is Bitcoin.h:489. -/
def ofAddress (amount : UInt64) (address : Bytes) : C TxOut := do
  let sc ← ({} : Script).fromAddress address
  return { amount := amount, scriptPubkey := ({} : Script).assign sc }

end TxOut
end UB
