import Verif.Props.Serialize

/-
C21 adding inputs and outputs, C25 script building, C28 witness building.
-/

namespace UB
open Spec

/-! ### Copies -/

theorem Script.clear_fresh_holds (sc : Script) (h : sc.arr.length = sc.scriptLen) : sc.clear.Holds [] := by
  unfold clear Holds
  split_ifs with h0
  · simp
  · have : sc.scriptLen = 0 := by omega
    rw [this] at h
    exact ⟨this, List.length_eq_zero_iff.mp h⟩

theorem Script.Holds.len {sc : Script} {d : Bytes} (h : sc.Holds d) : sc.arr.length = sc.scriptLen := by
  rw [h.1, h.2]

theorem Script.copy_holds {sc : Script} {d : Bytes} (h : sc.Holds d) : sc.copy.Holds d := by
  unfold copy
  split_ifs with h0
  · exact ⟨h.1, by simp [h.2, h.1]⟩
  · have : sc.scriptLen = 0 := by omega
    have hd : d = [] := List.length_eq_zero_iff.mp (by rw [← h.1, this])
    subst hd
    exact ⟨rfl, rfl⟩

theorem Script.assign_holds {self sc : Script} {d : Bytes} (hs : self.arr.length = self.scriptLen) (h : sc.Holds d) :
    (self.assign sc).Holds d := by
  unfold assign
  have hc := Script.clear_fresh_holds { self with status := .done, bytesParsed := 0 } hs
  simp only
  split_ifs with h0
  · exact ⟨h.1, by simp [h.2, h.1]⟩
  · have : sc.scriptLen = 0 := by omega
    have hd : d = [] := List.length_eq_zero_iff.mp (by rw [← h.1, this])
    subst hd
    exact hc

theorem Witness.copy_holds {w : Witness} {l : List Bytes} (h : w.Holds l) : w.copy.Holds l := h
theorem Witness.assign_holds {self w : Witness} {l : List Bytes} (h : w.Holds l) : (self.assign w).Holds l := h

theorem TxIn.copy_holds {t : TxIn} {i : In} (h : t.Holds i) : t.copy.Holds i :=
  ⟨⟨h.body.hash, h.body.hash_len, h.body.index, Script.copy_holds h.body.script, h.body.sequence⟩, Witness.copy_holds h.witness⟩

theorem TxIn.assign_holds {self t : TxIn} {i : In} (hs : self.scriptSig.arr.length = self.scriptSig.scriptLen) (h : t.Holds i) :
    (self.assign t).Holds i :=
  ⟨⟨h.body.hash, h.body.hash_len, h.body.index, Script.assign_holds hs h.body.script, h.body.sequence⟩, Witness.assign_holds h.witness⟩

theorem TxOut.copy_holds {t : TxOut} {o : Out} (h : t.Holds o) : t.copy.Holds o :=
  ⟨h.amount, Script.copy_holds h.script⟩

theorem TxOut.assign_holds {self t : TxOut} {o : Out} (hs : self.scriptPubkey.arr.length = self.scriptPubkey.scriptLen)
    (h : t.Holds o) : (self.assign t).Holds o :=
  ⟨h.amount, Script.assign_holds hs h.script⟩

theorem forall₂_append {α β : Type} {R : α → β → Prop} : ∀ {xs : List α} {ys : List β} {xs' : List α} {ys' : List β},
    List.Forall₂ R xs ys → List.Forall₂ R xs' ys' → List.Forall₂ R (xs ++ xs') (ys ++ ys')
  | [], _, _, _, .nil, h => h
  | _ :: _, _ :: _, _, _, .cons h hr, h' => .cons h (forall₂_append hr h')

theorem forall₂_map {α β : Type} {R : α → β → Prop} (f : α → α) (hf : ∀ a b, R a b → R (f a) b) :
    ∀ {xs : List α} {ys : List β}, List.Forall₂ R xs ys → List.Forall₂ R (xs.map f) ys
  | [], _, .nil => .nil
  | _ :: _, _ :: _, .cons h hr => .cons (hf _ _ h) (forall₂_map f hf hr)

/-- C21: `addInput` appends one input, keeps everything else, and returns the new count (as a byte). -/
theorem C21_addInput (t : Tx) (x : Transaction) (i : TxIn) (j : In) (h : t.Holds x) (hi : i.Holds j) :
    (t.addInput i).1.Holds { x with ins := x.ins ++ [j] } ∧
    (t.addInput i).1.txOuts = t.txOuts ∧ (t.addInput i).1.status = t.status ∧
    (t.addInput i).2.toNat = (x.ins.length + 1) % 256 := by
  refine ⟨⟨h.version, ?_, h.outs, h.locktime⟩, rfl, rfl, ?_⟩
  · exact forall₂_map _ (fun a b hab => TxIn.assign_holds rfl hab)
      (forall₂_append h.ins (.cons (TxIn.copy_holds hi) .nil))
  · have := h.ins.length_eq
    simp [Tx.addInput, this]

/-- C21: `addOutput`. -/
theorem C21_addOutput (t : Tx) (x : Transaction) (o : TxOut) (j : Out) (h : t.Holds x) (ho : o.Holds j) :
    (t.addOutput o).1.Holds { x with outs := x.outs ++ [j] } ∧
    (t.addOutput o).1.txIns = t.txIns ∧ (t.addOutput o).1.status = t.status ∧
    (t.addOutput o).2.toNat = (x.outs.length + 1) % 256 := by
  refine ⟨⟨h.version, h.ins, ?_, h.locktime⟩, rfl, rfl, ?_⟩
  · exact forall₂_map _ (fun a b hab => TxOut.assign_holds rfl hab)
      (forall₂_append h.outs (.cons (TxOut.copy_holds ho) .nil))
  · have := h.outs.length_eq
    simp [Tx.addOutput, this]

/-- C21: the copy constructor of a transaction preserves its content. -/
theorem C21_copy (t : Tx) (x : Transaction) (h : t.Holds x) : t.copy.Holds x :=
  ⟨h.version, forall₂_map _ (fun _ _ hab => TxIn.assign_holds rfl hab) h.ins,
    forall₂_map _ (fun _ _ hab => TxOut.assign_holds rfl hab) h.outs, h.locktime⟩

/-- C21: building a transaction input by input and output by output from an empty one. -/
theorem C21_build (v lock : UInt32) (ins : List (TxIn × In)) (outs : List (TxOut × Out))
    (hi : ∀ p ∈ ins, p.1.Holds p.2) (ho : ∀ p ∈ outs, p.1.Holds p.2) :
    ((outs.map Prod.fst).foldl (fun (t : Tx) o => (t.addOutput o).1)
      ((ins.map Prod.fst).foldl (fun (t : Tx) i => (t.addInput i).1) { version := v, locktime := lock })).Holds
      ⟨v.toNat, ins.map Prod.snd, outs.map Prod.snd, lock.toNat⟩ := by
  have h1 : ∀ (ins : List (TxIn × In)) (t : Tx) (x : Transaction), t.Holds x → (∀ p ∈ ins, p.1.Holds p.2) →
      ((ins.map (·.1)).foldl (fun t i => (t.addInput i).1) t).Holds { x with ins := x.ins ++ ins.map Prod.snd } := by
    intro ins
    induction ins with
    | nil => intro t x h _; simpa using h
    | cons p ps ih =>
      intro t x h hp
      have := ih _ _ (C21_addInput t x p.1 p.2 h (hp p (by simp))).1 (fun q hq => hp q (by simp [hq]))
      simpa using this
  have h2 : ∀ (outs : List (TxOut × Out)) (t : Tx) (x : Transaction), t.Holds x → (∀ p ∈ outs, p.1.Holds p.2) →
      ((outs.map (·.1)).foldl (fun t i => (t.addOutput i).1) t).Holds { x with outs := x.outs ++ outs.map Prod.snd } := by
    intro outs
    induction outs with
    | nil => intro t x h _; simpa using h
    | cons p ps ih =>
      intro t x h hp
      have := ih _ _ (C21_addOutput t x p.1 p.2 h (hp p (by simp))).1 (fun q hq => hp q (by simp [hq]))
      simpa using this
  have h0 : Tx.Holds { version := v, locktime := lock } ⟨v.toNat, [], [], lock.toNat⟩ := ⟨rfl, .nil, .nil, rfl⟩
  have := h2 outs _ _ (h1 ins _ _ h0 hi) ho
  simpa using this

example : (exTx.addInput exTxIn).1.Holds { exTxSpec with ins := [exIn, exIn] } :=
  (C21_addInput exTx exTxSpec exTxIn exIn exTx_holds exTxIn_holds).1

/-! ### Scripts -/

/-- C25: pushing raw data. -/
theorem C25_push_data (sc : Script) (d data : Bytes) (h : sc.Holds d) :
    if d.length + data.length ≤ 10000 then
      (sc.pushData data).1.Holds (d ++ data) ∧ (sc.pushData data).2 = (d ++ data).length
    else (sc.pushData data).1.Holds [] ∧ (sc.pushData data).2 = 0 := by
  unfold Script.pushData Script.maxScriptSize
  rw [h.1]
  split_ifs with h1 h2 h2
  · omega
  · exact ⟨⟨by simp, by simp [h.2]⟩, by simp⟩
  · exact ⟨Script.clear_fresh_holds sc h.len, rfl⟩
  · omega

/-- C25: pushing an opcode. -/
theorem C25_push_byte (sc : Script) (d : Bytes) (c : UInt8) (h : sc.Holds d) :
    if d.length + 1 ≤ 10000 then
      (sc.pushByte c).1.Holds (d ++ [c]) ∧ (sc.pushByte c).2 = (d ++ [c]).length
    else (sc.pushByte c).1.Holds [] ∧ (sc.pushByte c).2 = 0 := by
  unfold Script.pushByte Script.maxScriptSize
  rw [h.1]
  split_ifs with h1 h2 h2
  · omega
  · exact ⟨⟨by simp, by simp [h.2]⟩, by simp⟩
  · exact ⟨Script.clear_fresh_holds sc h.len, rfl⟩
  · omega

/-- One building step. -/
inductive Spec.ScriptOp where
  | opcode (c : UInt8)
  | data (d : Bytes)

def ScriptOp.run (sc : Script) : ScriptOp → Script
  | .opcode c => (sc.pushByte c).1
  | .data d => (sc.pushData d).1

/-- What a building step appends. -/
def Spec.ScriptOp.bytes : ScriptOp → Bytes
  | .opcode c => [c]
  | .data d => d

/-- The content after a building step. -/
def Spec.ScriptOp.apply (d : Bytes) (o : ScriptOp) : Bytes :=
  if d.length + o.bytes.length ≤ 10000 then d ++ o.bytes else []

/-- C25: any sequence of pushes on an empty script: its content is exactly what the steps prescribe, and its
size never exceeds the cap. -/
theorem C25_sequence (ops : List ScriptOp) :
    (ops.foldl ScriptOp.run ({} : Script)).Holds (ops.foldl ScriptOp.apply []) ∧
    (ops.foldl ScriptOp.run ({} : Script)).scriptLen ≤ 10000 := by
  have key : ∀ (ops : List ScriptOp) (sc : Script) (d : Bytes), sc.Holds d → d.length ≤ 10000 →
      (ops.foldl ScriptOp.run sc).Holds (ops.foldl ScriptOp.apply d) ∧ (ops.foldl ScriptOp.apply d).length ≤ 10000 := by
    intro ops
    induction ops with
    | nil => intro sc d h hd; exact ⟨h, hd⟩
    | cons o os ih =>
      intro sc d h hd
      simp only [List.foldl_cons]
      apply ih
      · cases o with
        | opcode c =>
          have := C25_push_byte sc d c h
          simp only [ScriptOp.run, ScriptOp.apply, ScriptOp.bytes, List.length_singleton]
          split_ifs at this with hh <;> simp only [hh, if_true, if_false] <;> exact this.1
        | data e =>
          have := C25_push_data sc d e h
          simp only [ScriptOp.run, ScriptOp.apply, ScriptOp.bytes]
          split_ifs at this with hh <;> simp only [hh, if_true, if_false] <;> exact this.1
      · simp only [ScriptOp.apply]
        split_ifs with h1
        · simpa using h1
        · simp
  have := key ops {} [] ⟨rfl, rfl⟩ (by simp)
  exact ⟨this.1, by rw [this.1.1]; exact this.2⟩

/-- C25: when the total stays within the cap, the script is the concatenation of everything pushed. -/
theorem C25_concat (ops : List ScriptOp) (h : (ops.flatMap ScriptOp.bytes).length ≤ 10000) :
    (ops.foldl ScriptOp.run ({} : Script)).Holds (ops.flatMap ScriptOp.bytes) := by
  have key : ∀ (ops : List ScriptOp) (d : Bytes), d.length + (ops.flatMap ScriptOp.bytes).length ≤ 10000 →
      ops.foldl ScriptOp.apply d = d ++ ops.flatMap ScriptOp.bytes := by
    intro ops
    induction ops with
    | nil => intro d _; simp
    | cons o os ih =>
      intro d hd
      simp only [List.flatMap_cons, List.length_append] at hd
      simp only [List.foldl_cons, ScriptOp.apply]
      rw [if_pos (by omega), ih _ (by rw [List.length_append]; omega)]
      simp
  have := (C25_sequence ops).1
  rw [key ops [] (by simpa using h)] at this
  simpa using this

example : ([ScriptOp.opcode 0x00, .opcode 20, .data (List.replicate 20 9)].foldl ScriptOp.run ({} : Script)).Holds
    ([0x00, 20] ++ List.replicate 20 9) := C25_concat _ (by decide)

/-! ### Witnesses -/

theorem flatMap_varBytes_length (items : List Bytes) : items.length ≤ (items.flatMap varBytes).length := by
  induction items with
  | nil => simp
  | cons a l ih =>
    have := compactSize_length a.length
    simp only [List.flatMap_cons, List.length_append, List.length_cons, varBytes]
    omega

/-- C28: pushing an item onto a witness. -/
theorem C28_push (w : Witness) (items : List Bytes) (data : Bytes) (h : w.Holds items) :
    ∃ w' n, w.push data = .ok (w', n) ∧
      if (items.flatMap varBytes).length + (varBytes data).length ≤ 10000 then
        w'.Holds (items ++ [data]) ∧ n = ((items ++ [data]).flatMap varBytes).length ∧ w'.numElements = items.length + 1
      else w'.Holds [] ∧ n = 0 := by
  by_cases hd : data.length < 2 ^ 64
  · have hv : (varBytes data).length = (compactSize data.length).length + data.length := by simp [varBytes]
    unfold Witness.push Script.maxScriptSize
    simp only []
    rw [h.2, lenVarIntN_eq _ hd, hv]
    by_cases hc : (items.flatMap varBytes).length + ((compactSize data.length).length + data.length) ≤ 10000
    · rw [if_neg (by omega), writeVarInt_zeros _ _ hd (by omega)]
      have := flatMap_varBytes_length items
      refine ⟨_, _, rfl, ?_⟩
      rw [if_pos hc, h.1, Nat.mod_eq_of_lt (by omega)]
      refine ⟨⟨by simp, by simp [varBytes, zeros]⟩, by simp [varBytes, zeros], rfl⟩
    · rw [if_pos (by omega)]
      refine ⟨_, _, rfl, ?_⟩
      rw [if_neg hc]
      exact ⟨⟨rfl, rfl⟩, rfl⟩
  · have hl : data.length > 10000 := by omega
    unfold Witness.push Script.maxScriptSize
    simp only []
    rw [if_pos (by omega)]
    refine ⟨_, _, rfl, ?_⟩
    rw [if_neg (by simp [varBytes]; omega)]
    exact ⟨⟨rfl, rfl⟩, rfl⟩

/-- C28: pushing a sequence of items whose total size stays within the cap onto an empty witness gives exactly
that stack, which serializes as the item count followed by the length-prefixed items in push order. -/
theorem C28_sequence (items : List Bytes) (h : (items.flatMap varBytes).length ≤ 10000) :
    ∃ w, items.foldlM (fun (w : Witness) d => do let (w, _) ← w.push d; return w) ({} : Witness) = .ok w ∧
      w.Holds items ∧ w.toStream none 0 = .ok (witnessBytes items) := by
  have key : ∀ (items done : List Bytes) (w : Witness), w.Holds done → ((done ++ items).flatMap varBytes).length ≤ 10000 →
      ∃ w', items.foldlM (fun (w : Witness) d => do let (w, _) ← w.push d; return w) w = .ok w' ∧ w'.Holds (done ++ items) := by
    intro items
    induction items with
    | nil => intro done w h _; exact ⟨w, rfl, by simpa using h⟩
    | cons d ds ih =>
      intro done w h hl
      obtain ⟨w1, n, e, h1⟩ := C28_push w done d h
      rw [if_pos (by simp at hl ⊢; omega)] at h1
      obtain ⟨w2, e2, h2⟩ := ih (done ++ [d]) w1 h1.1 (by simpa using hl)
      refine ⟨w2, ?_, by simpa using h2⟩
      simp only [List.foldlM_cons, e, C.bind_ok, C.pure_eq]
      exact e2
  obtain ⟨w, e, hw⟩ := key items [] {} ⟨rfl, rfl⟩ (by simpa using h)
  have := flatMap_varBytes_length items
  exact ⟨w, e, hw, by rw [Witness.toStream_eq w items hw (by omega)]; simp [window]⟩

/-- C28: pushing a script pushes its content as one item. -/
theorem C28_push_script (w : Witness) (items : List Bytes) (sc : Script) (d : Bytes) (h : w.Holds items) (hs : sc.Holds d)
    (hd : (items.flatMap varBytes).length + (varBytes d).length ≤ 10000) :
    ∃ w' n, w.pushScript sc = .ok (w', n) ∧ w'.Holds (items ++ [d]) ∧ n = ((items ++ [d]).flatMap varBytes).length := by
  have hd64 : d.length < 2 ^ 64 := by simp [varBytes] at hd; omega
  have hl := compactSize_length d.length
  unfold Witness.pushScript
  rw [serialize_eq _ _ (Script.toStream_eq sc d hs hd64), Script.length_eq sc d hs hd64]
  simp only [C.bind_ok, serialized, List.drop_zero, List.take_length, Nat.sub_self, List.replicate_zero, List.append_nil]
  rw [show readVarInt (varBytes d) = .ok (UInt64.ofNat d.length) from ?_]
  · simp only [C.bind_ok, UInt64.toNat_ofNat', Nat.mod_eq_of_lt hd64]
    rw [if_neg (by simp [varBytes])]
    have e : load (varBytes d) ((varBytes d).length - d.length) d.length = .ok d := by
      have e1 : (varBytes d).length - d.length = (compactSize d.length).length := by simp [varBytes]
      rw [e1]
      simp [load, varBytes]
    rw [e]
    obtain ⟨w1, n, e1, h1⟩ := C28_push w items d h
    rw [if_pos hd] at h1
    simp only [C.bind_ok, e1, C.pure_eq]
    exact ⟨w1, _, rfl, h1.1, by rw [h1.1.2]⟩
  · have := readVarInt_compactSize (UInt64.ofNat d.length) d
    rwa [UInt64.toNat_ofNat', Nat.mod_eq_of_lt hd64] at this

end UB
