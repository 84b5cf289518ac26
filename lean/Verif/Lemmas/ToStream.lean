import Verif.Spec.Abs
import Verif.Lemmas.Ser
import Mathlib.Tactic.SplitIfs

set_option linter.unusedTactic false
set_option linter.unreachableTactic false

namespace UB

open Spec

theorem lenVarIntN_eq (n : Nat) (h : n < 2 ^ 64) : lenVarIntN n = (compactSize n).length := by
  unfold lenVarIntN; rw [lenVarInt_eq, UInt64.toNat_ofNat', Nat.mod_eq_of_lt h]

theorem compactSize_length (n : Nat) : (compactSize n).length = 1 ∨ (compactSize n).length = 3 ∨
    (compactSize n).length = 5 ∨ (compactSize n).length = 9 := by
  unfold compactSize; split_ifs <;> simp

theorem writeVarInt_zeros (n k : Nat) (h : n < 2 ^ 64) (hk : (compactSize n).length ≤ k) :
    writeVarInt (UInt64.ofNat n) (zeros k) = .ok ((compactSize n).length, compactSize n ++ zeros (k - (compactSize n).length)) := by
  rw [writeVarInt_eq]
  simp only [UInt64.toNat_ofNat', Nat.mod_eq_of_lt h, length_zeros]
  rw [if_neg (by omega)]
  simp [zeros]

theorem Script.toStream_eq (sc : Script) (d : Bytes) (h : sc.Holds d) (hd : d.length < 2 ^ 64) (cap : Option Nat) (off : Nat) :
    sc.toStream cap off = .ok (window cap off (varBytes d)) := by
  obtain ⟨h1, h2⟩ := h
  unfold toStream
  have hl := compactSize_length d.length
  rw [h1, h2, lenVarIntN_eq _ hd, writeVarInt_zeros _ _ hd (by omega)]
  simp only [C.bind_ok]
  rw [← Ser.after_nil cap off, Ser.emit_after' cap off [] _ (compactSize d.length).length (by simp <;> omega) _ _ (by simp <;> omega) (by simp <;> omega)]
  simp only [C.bind_ok, List.nil_append, List.take_left']
  rw [Ser.emit_after cap off _ _ _ _ rfl rfl]
  rfl

theorem Witness.toStream_eq (w : Witness) (items : List Bytes) (h : w.Holds items) (hd : items.length < 2 ^ 64) (cap : Option Nat) (off : Nat) :
    w.toStream cap off = .ok (window cap off (witnessBytes items)) := by
  obtain ⟨h1, h2⟩ := h
  unfold toStream
  have hl := compactSize_length items.length
  rw [h1, h2, lenVarIntN_eq _ hd, writeVarInt_zeros _ _ hd (by omega)]
  simp only [C.bind_ok]
  rw [← Ser.after_nil cap off, Ser.emit_after' cap off [] _ (compactSize items.length).length (by simp <;> omega) _ _ (by simp <;> omega) (by simp <;> omega)]
  simp only [C.bind_ok, List.nil_append, List.take_left']
  rw [Ser.emit_after cap off _ _ _ _ rfl rfl]
  rfl

theorem Script.length_eq (sc : Script) (d : Bytes) (h : sc.Holds d) (hd : d.length < 2 ^ 64) :
    sc.length = (varBytes d).length := by
  unfold length varBytes; rw [h.1, lenVarIntN_eq _ hd]; simp; omega

theorem Witness.length_eq (w : Witness) (items : List Bytes) (h : w.Holds items) (hd : items.length < 2 ^ 64) :
    w.length = (witnessBytes items).length := by
  unfold length witnessBytes; rw [h.1, h.2, lenVarIntN_eq _ hd]; simp; omega

theorem TxIn.length_eq (t : TxIn) (i : In) (h : t.HoldsBody i) (hd : i.script.length < 2 ^ 64) :
    t.length = (inBytes i).length := by
  unfold length inBytes; rw [Script.length_eq _ _ h.script hd, ← h.hash]; simp [h.hash_len]; omega

theorem TxOut.length_eq (t : TxOut) (o : Out) (h : t.Holds o) (hd : o.script.length < 2 ^ 64) :
    t.length = (outBytes o).length := by
  unfold length outBytes; rw [Script.length_eq _ _ h.script hd]; simp

theorem TxIn.toStream_eq (t : TxIn) (i : In) (h : t.HoldsBody i) (hd : i.script.length < 2 ^ 64) (cap : Option Nat) (off : Nat) :
    t.toStream cap off = .ok (window cap off (inBytes i)) := by
  unfold toStream inBytes
  simp only []
  have hh : i.prevHash.length = 32 := by rw [← h.hash]; exact h.hash_len
  rw [← Ser.after_nil cap off, h.hash, Ser.emit_after cap off _ _ _ _ (by simp <;> omega) (by simp [hh] <;> omega)]
  simp only [C.bind_ok, List.nil_append]
  rw [intToLittleEndian_eq _ _ (by omega), intToLittleEndian_eq _ _ (by omega)]
  simp only [C.bind_ok, UInt32.toNat_toUInt64, h.index, h.sequence]
  rw [Ser.emit_after cap off _ _ _ _ (by simp [hh] <;> omega) (by simp [hh] <;> omega)]
  simp only [C.bind_ok]
  rw [Ser.emitObj_after cap off _ (varBytes i.script) _ _ _ (by simp [hh] <;> omega)
    (by rw [Script.length_eq _ _ h.script hd]; simp [hh]) (fun c o => Script.toStream_eq _ _ h.script hd c o)]
  simp only [C.bind_ok]
  rw [Script.length_eq _ _ h.script hd, Ser.emit_after cap off _ _ _ _ (by simp [hh] <;> omega) (by simp [hh] <;> omega)]
  rfl

theorem TxOut.toStream_eq (t : TxOut) (o : Out) (h : t.Holds o) (hd : o.script.length < 2 ^ 64) (cap : Option Nat) (off : Nat) :
    t.toStream cap off = .ok (window cap off (outBytes o)) := by
  unfold toStream outBytes
  rw [intToLittleEndian_eq _ _ (by omega), h.amount]
  simp only [C.bind_ok]
  rw [← Ser.after_nil cap off, Ser.emit_after cap off _ _ _ _ (by simp <;> omega) (by simp <;> omega)]
  simp only [C.bind_ok, List.nil_append]
  rw [Ser.emitObj_after cap off _ (varBytes o.script) _ _ _ (by simp <;> omega)
    (by rw [Script.length_eq _ _ h.script hd]; simp) (fun c k => Script.toStream_eq _ _ h.script hd c k)]
  rfl

/-- Writing a list of sub-objects one after the other. -/
theorem emitList_after {α β : Type} (R : α → β → Prop) (f : α → Option Nat → Nat → C Bytes) (len : α → Nat) (ser : β → Bytes)
    (cap : Option Nat) (off : Nat) : ∀ (xs : List α) (ys : List β) (full : Bytes) (cur : Nat),
    List.Forall₂ R xs ys → (∀ x y, R x y → y ∈ ys → len x = (ser y).length ∧ ∀ c o, f x c o = .ok (window c o (ser y))) →
    cur = full.length →
    Tx.emitList (Ser.after cap off full) (xs.map fun x => (f x, len x)) cur off =
      .ok (Ser.after cap off (full ++ ys.flatMap ser), full.length + (ys.flatMap ser).length)
  | [], _, full, cur, .nil, _, hc => by simp [Tx.emitList, hc]
  | x :: xs, y :: ys, full, cur, .cons hxy hr, H, hc => by
    obtain ⟨e1, e2⟩ := H x y hxy (by simp <;> omega)
    simp only [List.map_cons, Tx.emitList]
    rw [Ser.emitObj_after cap off full (ser y) _ _ _ hc (by rw [hc, e1]) e2]
    simp only [C.bind_ok]
    rw [emitList_after R f len ser cap off xs ys (full ++ ser y) (cur + len x) hr
      (fun a b hab hb => H a b hab (by simp [hb])) (by rw [hc, e1]; simp)]
    simp; omega

theorem forall₂_exists {α β : Type} {R : α → β → Prop} : ∀ {xs : List α} {ys : List β}, List.Forall₂ R xs ys →
    ∀ p : α → Prop, ∀ q : β → Prop, (∀ x y, R x y → y ∈ ys → (p x ↔ q y)) → ((∃ x ∈ xs, p x) ↔ ∃ y ∈ ys, q y)
  | [], _, .nil, _, _, _ => by simp
  | x :: xs, y :: ys, .cons h hr, p, q, H => by
    have := forall₂_exists hr p q (fun a b hab hb => H a b hab (by simp [hb]))
    have h2 := H x y h (by simp <;> omega)
    simp only [List.mem_cons, exists_eq_or_imp, this, h2]

theorem Tx.isSegwit_eq (t : Tx) (x : Transaction) (h : t.Holds x) (hs : ∀ i ∈ x.ins, i.witness.length < 256) :
    t.isSegwit = true ↔ hasWitness x := by
  unfold isSegwit hasWitness
  rw [List.any_eq_true]
  apply forall₂_exists h.ins (fun a => a.isSegwit = true) (fun i => i.witness ≠ [])
  intro a i hai hi
  have := hs i hi
  unfold TxIn.isSegwit
  rw [hai.witness.1, Nat.mod_eq_of_lt this]
  simp [List.length_pos_iff]

theorem forall₂_sum {α β : Type} {R : α → β → Prop} : ∀ {xs : List α} {ys : List β}, List.Forall₂ R xs ys →
    ∀ f : α → Nat, ∀ g : β → Nat, (∀ x y, R x y → y ∈ ys → f x = g y) → (xs.map f).sum = (ys.map g).sum
  | [], _, .nil, _, _, _ => rfl
  | x :: xs, y :: ys, .cons h hr, f, g, H => by
    simp [H x y h (by simp <;> omega), forall₂_sum hr f g (fun a b hab hb => H a b hab (by simp [hb]))]

theorem sum_map_length {β : Type} (ser : β → Bytes) (ys : List β) :
    (ys.map fun y => (ser y).length).sum = (ys.flatMap ser).length := by
  rw [List.length_flatMap]

theorem length_txBytes (x : Transaction) : (txBytes x).length = 4 + 4 + (compactSize x.ins.length).length +
    (compactSize x.outs.length).length + (if hasWitness x then 2 else 0) +
    ((x.ins.map fun i => (inBytes i).length).sum + if hasWitness x then (x.ins.map fun i => (witnessBytes i.witness).length).sum else 0) +
    (x.outs.map fun o => (outBytes o).length).sum := by
  unfold txBytes
  split
  · simp [segwitBytes, List.length_flatMap]; omega
  · simp [legacyBytes, List.length_flatMap]; omega

theorem sum_add {α : Type} (f g : α → Nat) (l : List α) : (l.map fun a => f a + g a).sum = (l.map f).sum + (l.map g).sum := by
  induction l with
  | nil => rfl
  | cons a l ih => simp [ih]; omega

theorem Tx.length_eq (t : Tx) (x : Transaction) (h : t.Holds x) (hi : x.ins.length < 2 ^ 64) (ho : x.outs.length < 2 ^ 64)
    (h1 : ∀ i ∈ x.ins, i.script.length < 2 ^ 64) (h2 : ∀ o ∈ x.outs, o.script.length < 2 ^ 64)
    (hs : ∀ i ∈ x.ins, i.witness.length < 256) :
    t.length = (txBytes x).length := by
  have e := t.isSegwit_eq x h hs
  rw [length_txBytes]
  unfold length
  rw [h.ins.length_eq, h.outs.length_eq, lenVarIntN_eq _ hi, lenVarIntN_eq _ ho]
  rw [forall₂_sum h.outs _ (fun o => (outBytes o).length) (fun a o hao hm => TxOut.length_eq a o hao (h2 o hm))]
  by_cases hw : hasWitness x
  · rw [if_pos hw, if_pos (e.mpr hw)]
    simp only [if_pos hw, if_pos (e.mpr hw)]
    rw [forall₂_sum h.ins _ (fun i => (inBytes i).length + (witnessBytes i.witness).length)
      (fun a i hai hm => by rw [TxIn.length_eq a i hai.body (h1 i hm), Witness.length_eq _ _ hai.witness (by have := hs i hm; omega)]),
      sum_add]
  · have hn : ¬ (t.isSegwit = true) := fun hh => hw (e.mp hh)
    simp only [if_neg hw, if_neg hn, Nat.add_zero]
    rw [forall₂_sum h.ins _ (fun i => (inBytes i).length)
      (fun a i hai hm => by rw [TxIn.length_eq a i hai.body (h1 i hm)])]

theorem writeVarInt_small (n : Nat) (arr : Bytes) (h : n < 253) (ha : arr ≠ []) :
    ∃ arr', writeVarInt (UInt64.ofNat n) arr = .ok (1, arr') ∧ arr'.take 1 = [UInt8.ofNat n] ∧ arr' ≠ [] := by
  rw [writeVarInt_eq]
  have e : compactSize n = [UInt8.ofNat n] := by simp [compactSize, h]
  simp only [UInt64.toNat_ofNat', Nat.mod_eq_of_lt (show n < 2 ^ 64 by omega), e]
  have := List.length_pos_iff.mpr ha
  rw [if_neg (by simp <;> omega)]
  exact ⟨_, rfl, by simp, by simp⟩

theorem Ser.after_out (cap : Option Nat) (off : Nat) (full : Bytes) : (Ser.after cap off full).out = window cap off full := rfl

/-- The single-byte writes of marker and flag. -/
theorem push_marker (cap : Option Nat) (off : Nat) (full : Bytes) (b : UInt8) (n : Nat) (hn : n = full.length) :
    (if (Ser.after cap off full).avail = true ∧ (Ser.after cap off full).out.length + off = n then
      (Ser.after cap off full).push [b] else Ser.after cap off full) = Ser.after cap off (full ++ [b]) := by
  subst hn
  have e := Ser.emitOne_after cap off full [b] b _ _ rfl rfl (by simp <;> omega)
  unfold Ser.emitOne at e
  rw [Ser.after_out] at e ⊢
  by_cases h : (Ser.after cap off full).avail = true ∧ (window cap off full).length + off = full.length
  · rw [if_pos h]
    simp only at e
    rw [if_pos ⟨h.1, by omega⟩, if_neg (by omega), h.2] at e
    simpa [load] using e
  · rw [if_neg h]
    by_cases h2 : (Ser.after cap off full).avail = true ∧ (window cap off full).length + off < full.length + 1
    · have := (Ser.window_split cap off full [b] (by simpa using h2.2) h2.1).1
      exact absurd ⟨h2.1, by omega⟩ h
    · simp only at e
      rw [if_neg h2] at e
      simpa using e

theorem Tx.toStream_eq (t : Tx) (x : Transaction) (h : t.Holds x) (hs : SmallTx x) (cap : Option Nat) (off : Nat) :
    t.toStream cap off = .ok (window cap off (txBytes x)) := by
  have e := t.isSegwit_eq x h (fun i hi => by have := hs.stacks i hi; omega)
  have ci : compactSize x.ins.length = [UInt8.ofNat x.ins.length] := by simp [compactSize, hs.ins]
  have co : compactSize x.outs.length = [UInt8.ofNat x.outs.length] := by simp [compactSize, hs.outs]
  have Hin : ∀ a i, TxIn.Holds a i → i ∈ x.ins → a.length = (inBytes i).length ∧ ∀ c o, a.toStream c o = .ok (window c o (inBytes i)) :=
    fun a i hai hi => ⟨TxIn.length_eq _ _ hai.body (hs.inScripts i hi), fun c o => TxIn.toStream_eq _ _ hai.body (hs.inScripts i hi) c o⟩
  have Hout : ∀ a i, TxOut.Holds a i → i ∈ x.outs → a.length = (outBytes i).length ∧ ∀ c o, a.toStream c o = .ok (window c o (outBytes i)) :=
    fun a i hai hi => ⟨TxOut.length_eq _ _ hai (hs.outScripts i hi), fun c o => TxOut.toStream_eq _ _ hai (hs.outScripts i hi) c o⟩
  have Hwit : ∀ a i, TxIn.Holds a i → i ∈ x.ins → a.witness.length = (witnessBytes i.witness).length ∧
      ∀ c o, a.witness.toStream c o = .ok (window c o (witnessBytes i.witness)) :=
    fun a i hai hi => ⟨Witness.length_eq _ _ hai.witness (by have := hs.stacks i hi; omega),
      fun c o => Witness.toStream_eq _ _ hai.witness (by have := hs.stacks i hi; omega) c o⟩
  unfold toStream
  rw [intToLittleEndian_eq _ _ (by omega), intToLittleEndian_eq _ _ (by omega)]
  simp only [C.bind_ok, UInt32.toNat_toUInt64, h.version, h.locktime]
  rw [← Ser.after_nil cap off, Ser.emit_after cap off _ _ _ _ (by simp <;> omega) (by simp <;> omega)]
  simp only [C.bind_ok, List.nil_append]
  rw [h.ins.length_eq, h.outs.length_eq]
  obtain ⟨a1, w1, t1, n1⟩ := writeVarInt_small x.ins.length (leBytes 4 x.version ++ zeros 6) hs.ins (by simp [zeros])
  rw [w1]
  simp only [C.bind_ok]
  obtain ⟨a2, w2, t2, n2⟩ := writeVarInt_small x.outs.length a1 hs.outs n1
  by_cases hw : hasWitness x
  · have hw' := e.mpr hw
    simp only [hw', true_and, if_true]
    rw [push_marker cap off _ 0 4 (by simp <;> omega), push_marker cap off _ 1 5 (by simp <;> omega)]
    rw [Ser.emitOne_after cap off _ a1 _ _ _ (by simp <;> omega) (by simp <;> omega) t1]
    simp only [C.bind_ok]
    rw [emitList_after TxIn.Holds TxIn.toStream TxIn.length inBytes cap off t.txIns x.ins _ _ h.ins Hin (by simp <;> omega)]
    simp only [C.bind_ok, w2]
    rw [Ser.emitOne_after cap off _ a2 _ _ _ (by simp <;> omega) (by simp <;> omega) t2]
    simp only [C.bind_ok]
    rw [emitList_after TxOut.Holds TxOut.toStream TxOut.length outBytes cap off t.txOuts x.outs _ _ h.outs Hout (by simp <;> omega)]
    simp only [C.bind_ok]
    rw [emitList_after TxIn.Holds (fun i => i.witness.toStream) (fun i => i.witness.length) (fun i => witnessBytes i.witness) cap off t.txIns x.ins _ _ h.ins Hwit (by simp <;> omega)]
    simp only [C.bind_ok]
    rw [Ser.emit_after cap off _ _ _ _ (by simp <;> omega) (by simp <;> omega)]
    simp only [C.bind_ok, C.pure_eq, Ser.after_out]
    congr 2
    rw [txBytes, if_pos hw, segwitBytes, ci, co]
    simp
  · have hn : t.isSegwit = false := by
      cases hb : t.isSegwit with
      | false => rfl
      | true => exact absurd (e.mp hb) hw
    simp only [hn, Bool.false_eq_true, false_and, if_false]
    rw [Ser.emitOne_after cap off _ a1 _ _ _ (by simp <;> omega) (by simp <;> omega) t1]
    simp only [C.bind_ok]
    rw [emitList_after TxIn.Holds TxIn.toStream TxIn.length inBytes cap off t.txIns x.ins _ _ h.ins Hin (by simp <;> omega)]
    simp only [C.bind_ok, w2]
    rw [Ser.emitOne_after cap off _ a2 _ _ _ (by simp <;> omega) (by simp <;> omega) t2]
    simp only [C.bind_ok]
    rw [emitList_after TxOut.Holds TxOut.toStream TxOut.length outBytes cap off t.txOuts x.outs _ _ h.outs Hout (by simp <;> omega)]
    simp only [C.bind_ok]
    rw [Ser.emit_after cap off _ _ _ _ (by simp <;> omega) (by simp <;> omega)]
    simp only [C.bind_ok, C.pure_eq, Ser.after_out]
    congr 2
    rw [txBytes, if_neg hw, legacyBytes, ci, co]

end UB
