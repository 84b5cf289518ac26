import Verif.Lemmas.ToStream
import Verif.Lemmas.Hex

/-
C11 serialization in arbitrary windows, C12 length().
-/

namespace UB
open Spec

/-- What `serialize(arr, len, offset, format)` must leave in the caller's buffer. -/
def Spec.serialized (full : Bytes) (len offset : Nat) : Format → Nat × Bytes
  | .raw =>
    let w := (full.drop offset).take len
    (w.length, w ++ List.replicate (len - w.length) 0)
  | .hex =>
    let w := (full.drop offset).take (len / 2)
    (w.length, hexText w ++ List.replicate (len - 2 * w.length) 0)

theorem serialize_eq (f : Option Nat → Nat → C Bytes) (full : Bytes) (h : ∀ cap off, f cap off = .ok (window cap off full))
    (len off : Nat) (fmt : Format) : serialize f len off fmt = .ok (serialized full len off fmt) := by
  cases fmt
  · simp [serialize, h, window, serialized, zeros]
  · simp [serialize, h, window, serialized, zeros, hexChars_eq]

/-- C11: scripts, to a stream of any capacity and through `serialize` in both formats. -/
theorem C11_script (sc : Script) (d : Bytes) (h : sc.Holds d) (hd : d.length < 2 ^ 64) :
    (∀ cap off, sc.toStream cap off = .ok (window cap off (varBytes d))) ∧
    ∀ len off fmt, serialize sc.toStream len off fmt = .ok (serialized (varBytes d) len off fmt) :=
  ⟨Script.toStream_eq sc d h hd, serialize_eq _ _ (Script.toStream_eq sc d h hd)⟩

/-- C11: witnesses. -/
theorem C11_witness (w : Witness) (items : List Bytes) (h : w.Holds items) (hd : items.length < 2 ^ 64) :
    (∀ cap off, w.toStream cap off = .ok (window cap off (witnessBytes items))) ∧
    ∀ len off fmt, serialize w.toStream len off fmt = .ok (serialized (witnessBytes items) len off fmt) :=
  ⟨Witness.toStream_eq w items h hd, serialize_eq _ _ (Witness.toStream_eq w items h hd)⟩

/-- C11: inputs. -/
theorem C11_txin (t : TxIn) (i : In) (h : t.HoldsBody i) (hd : i.script.length < 2 ^ 64) :
    (∀ cap off, t.toStream cap off = .ok (window cap off (inBytes i))) ∧
    ∀ len off fmt, serialize t.toStream len off fmt = .ok (serialized (inBytes i) len off fmt) :=
  ⟨TxIn.toStream_eq t i h hd, serialize_eq _ _ (TxIn.toStream_eq t i h hd)⟩

/-- C11: outputs. -/
theorem C11_txout (t : TxOut) (o : Out) (h : t.Holds o) (hd : o.script.length < 2 ^ 64) :
    (∀ cap off, t.toStream cap off = .ok (window cap off (outBytes o))) ∧
    ∀ len off fmt, serialize t.toStream len off fmt = .ok (serialized (outBytes o) len off fmt) :=
  ⟨TxOut.toStream_eq t o h hd, serialize_eq _ _ (TxOut.toStream_eq t o h hd)⟩

/-- C11: transactions, with fewer than 253 inputs, outputs and witness items per input.
Missing: larger counts, for which the code writes only one byte of the count in a call. -/
theorem C11_tx_partial (t : Tx) (x : Transaction) (h : t.Holds x) (hs : SmallTx x) :
    (∀ cap off, t.toStream cap off = .ok (window cap off (txBytes x))) ∧
    ∀ len off fmt, serialize t.toStream len off fmt = .ok (serialized (txBytes x) len off fmt) :=
  ⟨Tx.toStream_eq t x h hs, serialize_eq _ _ (Tx.toStream_eq t x h hs)⟩

/-- Serializing by successive calls with buffers of the given sizes, each call at the offset where the
previous one stopped. -/
def Spec.inPieces (f : Option Nat → Nat → C Bytes) : List Nat → Nat → C Bytes
  | [], _ => .ok []
  | c :: cs, off => do
    let w ← f (some c) off
    let rest ← inPieces f cs (off + w.length)
    return w ++ rest

theorem inPieces_eq (f : Option Nat → Nat → C Bytes) (full : Bytes) (h : ∀ cap off, f cap off = .ok (window cap off full)) :
    ∀ (caps : List Nat) (off : Nat), off ≤ full.length → full.length ≤ off + caps.sum → inPieces f caps off = .ok (full.drop off)
  | [], off, _, hs => by simp at hs; simp [inPieces, List.drop_of_length_le hs]
  | c :: cs, off, ho, hs => by
    simp only [inPieces, h, window, C.bind_ok]
    simp only [List.sum_cons] at hs
    rw [inPieces_eq f full h cs _ (by simp; omega) (by simp; omega)]
    simp only [C.bind_ok, C.pure_eq, List.length_take, List.length_drop]
    by_cases hc : c ≤ full.length - off
    · rw [Nat.min_eq_left hc, ← List.drop_drop, List.take_append_drop]
    · rw [Nat.min_eq_right (by omega), List.take_of_length_le (by rw [List.length_drop]; omega),
        List.drop_of_length_le (show full.length ≤ off + (full.length - off) by omega), List.append_nil]

/-- C11: serializing a transaction through a small buffer in several calls gives the complete serialization. -/
theorem C11_tx_pieces_partial (t : Tx) (x : Transaction) (h : t.Holds x) (hs : SmallTx x) (caps : List Nat)
    (hc : (txBytes x).length ≤ caps.sum) : inPieces t.toStream caps 0 = .ok (txBytes x) := by
  rw [inPieces_eq _ _ (Tx.toStream_eq t x h hs) caps 0 (by omega) (by omega), List.drop_zero]

/-- C12: `length()` of every class is the size of the complete serialization. -/
theorem C12_script (sc : Script) (d : Bytes) (h : sc.Holds d) (hd : d.length < 2 ^ 64) :
    ∃ bs, sc.toStream none 0 = .ok bs ∧ sc.length = bs.length ∧ bs = varBytes d :=
  ⟨_, Script.toStream_eq sc d h hd _ _, by simp [window, Script.length_eq sc d h hd], by simp [window]⟩

theorem C12_witness (w : Witness) (items : List Bytes) (h : w.Holds items) (hd : items.length < 2 ^ 64) :
    ∃ bs, w.toStream none 0 = .ok bs ∧ w.length = bs.length ∧ bs = witnessBytes items :=
  ⟨_, Witness.toStream_eq w items h hd _ _, by simp [window, Witness.length_eq w items h hd], by simp [window]⟩

theorem C12_txin (t : TxIn) (i : In) (h : t.HoldsBody i) (hd : i.script.length < 2 ^ 64) :
    ∃ bs, t.toStream none 0 = .ok bs ∧ t.length = bs.length ∧ bs = inBytes i :=
  ⟨_, TxIn.toStream_eq t i h hd _ _, by simp [window, TxIn.length_eq t i h hd], by simp [window]⟩

theorem C12_txout (t : TxOut) (o : Out) (h : t.Holds o) (hd : o.script.length < 2 ^ 64) :
    ∃ bs, t.toStream none 0 = .ok bs ∧ t.length = bs.length ∧ bs = outBytes o :=
  ⟨_, TxOut.toStream_eq t o h hd _ _, by simp [window, TxOut.length_eq t o h hd], by simp [window]⟩

/-- C12: for transactions `length()` is the size of the wire encoding for any number of inputs and outputs. -/
theorem C12_tx (t : Tx) (x : Transaction) (h : t.Holds x) (hi : x.ins.length < 2 ^ 64) (ho : x.outs.length < 2 ^ 64)
    (h1 : ∀ i ∈ x.ins, i.script.length < 2 ^ 64) (h2 : ∀ o ∈ x.outs, o.script.length < 2 ^ 64)
    (hs : ∀ i ∈ x.ins, i.witness.length < 256) : t.length = (txBytes x).length :=
  Tx.length_eq t x h hi ho h1 h2 hs

/-- C12: and of what `to_stream` writes, within the limits of C11. -/
theorem C12_tx_written (t : Tx) (x : Transaction) (h : t.Holds x) (hs : SmallTx x) :
    ∃ bs, t.toStream none 0 = .ok bs ∧ t.length = bs.length := by
  refine ⟨_, Tx.toStream_eq t x h hs _ _, ?_⟩
  have := hs.ins; have := hs.outs
  simp [window, Tx.length_eq t x h (by omega) (by omega) hs.inScripts hs.outScripts
    (fun i hi => by have := hs.stacks i hi; omega)]

/-! Concrete objects satisfying the hypotheses. -/

def exIn : In := ⟨List.replicate 32 7, 3, [0x51, 0x52], 0xfffffffe, [[1, 2, 3], []]⟩
def exOut : Out := ⟨5000000000, [0x6a]⟩
def exTxSpec : Transaction := ⟨2, [exIn], [exOut, exOut], 17⟩

def exTxIn : TxIn :=
  { hash := List.replicate 32 7, outputIndex := 3, scriptSig := { scriptLen := 2, arr := [0x51, 0x52] },
    sequence := 0xfffffffe, witness := { numElements := 2, arr := [3, 1, 2, 3, 0] } }
def exTxOut : TxOut := { amount := 5000000000, scriptPubkey := { scriptLen := 1, arr := [0x6a] } }
def exTx : Tx := { version := 2, txIns := [exTxIn], txOuts := [exTxOut, exTxOut], locktime := 17 }

theorem exTxIn_holds : exTxIn.Holds exIn :=
  ⟨⟨rfl, rfl, rfl, ⟨rfl, rfl⟩, rfl⟩, ⟨rfl, by decide⟩⟩
theorem exTxOut_holds : exTxOut.Holds exOut := ⟨rfl, rfl, rfl⟩
theorem exTx_holds : exTx.Holds exTxSpec :=
  ⟨rfl, .cons exTxIn_holds .nil, .cons exTxOut_holds (.cons exTxOut_holds .nil), rfl⟩
theorem exTx_small : SmallTx exTxSpec := by
  constructor <;> simp [exTxSpec, exIn, exOut]

example : exTx.toStream none 0 = .ok (segwitBytes exTxSpec) ∧ exTx.length = (segwitBytes exTxSpec).length := by
  have h := (C11_tx_partial exTx exTxSpec exTx_holds exTx_small).1 none 0
  exact ⟨by rw [h]; decide +kernel, by decide +kernel⟩

end UB
