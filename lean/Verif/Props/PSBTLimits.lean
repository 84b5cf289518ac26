import Verif.Props.PSBTFee
import Verif.Props.Parse

/-
C55, C56, C57: a document for the theorems, and what happens outside the limits.
-/

namespace UB
open Spec

/-! ### A document -/

/-- One input that spends output 0 of `exTxSpec`, one output. -/
def exPsbtTx : Transaction := ⟨2, [⟨hash256 (legacyBytes exTxSpec), 0, [], 0xfffffffe, []⟩], [⟨4999990000, [0x51]⟩], 0⟩

def exOrigin : KeyOrigin := ⟨true, G, [1, 2, 3, 4], [0x80000054, 0x80000000, 0, 7]⟩

def exSigEntry : SigEntry := ⟨true, G, 1, 2, [0x30, 6, 2, 1, 1, 2, 1, 2], 1⟩

def exDoc : PsbtDoc := ⟨exPsbtTx, [([0xfc, 1], [5])], [[.prevTx exTxSpec, .redeemScript [0x51], .origin exOrigin, .partialSig exSigEntry, .other ([9, 9], [])]], [[.origin exOrigin, .witnessScript [0x52]]]⟩

theorem exTxSpec_wire : WireTx exTxSpec :=
  ⟨by decide, by decide, by simp only [exTxSpec, List.forall_mem_cons]; exact ⟨⟨rfl, by decide, by decide, by decide⟩, by simp⟩,
    by simp only [exTxSpec, List.forall_mem_cons]; exact ⟨⟨by decide, by decide⟩, ⟨by decide, by decide⟩, by simp⟩, by decide⟩

theorem exPsbtTx_wire : WireTx exPsbtTx :=
  ⟨by decide, by decide, by simp only [exPsbtTx, List.forall_mem_cons]; exact ⟨⟨hash256_length _, by decide, by decide, by decide⟩, by simp⟩,
    by simp only [exPsbtTx, List.forall_mem_cons]; exact ⟨⟨by decide, by decide⟩, by simp⟩, by simp [exPsbtTx]⟩

theorem exPsbtTx_length : (txBytes exPsbtTx).length = 61 := by
  have : ¬ hasWitness exPsbtTx := by simp [hasWitness, exPsbtTx]
  rw [txBytes, if_neg this]
  unfold exPsbtTx
  have h := hash256_length (legacyBytes exTxSpec)
  generalize hash256 (legacyBytes exTxSpec) = x at h
  simp [legacyBytes, inBytes, outBytes, h, varBytes, compactSize, length_leBytes]

theorem exOrigin_ok : exOrigin.Ok := ⟨G_ne_zero, rfl, by decide, by decide, by decide⟩

theorem exSigEntry_ok : exSigEntry.Ok :=
  ⟨G_ne_zero, ⟨[1], [2], ⟨by simp, by decide, by intro a b r h; cases h⟩, ⟨by simp, by decide, by intro a b r h; cases h⟩, by decide, by decide⟩, by decide, by decide⟩

theorem exDoc_ok : exDoc.Ok where
  wire := exPsbtTx_wire
  nonempty := by simp [exDoc, exPsbtTx]
  nIns := by simp [exDoc, exPsbtTx]
  nOuts := by simp [exDoc, exPsbtTx]
  count := by simp [exDoc, exPsbtTx]
  size := by change (txBytes exPsbtTx).length < _; rw [exPsbtTx_length]; decide
  exact := by change misread (txBytes exPsbtTx).length = _; rw [exPsbtTx_length]; decide
  globals := by simp [exDoc]
  ins := by
    refine .cons ⟨?_, by decide, by decide⟩ .nil
    intro f hf
    simp only [List.mem_cons, List.not_mem_nil, or_false] at hf
    rcases hf with rfl | rfl | rfl | rfl | rfl
    · exact ⟨exTxSpec_wire, by decide, by decide, by decide, rfl, by decide, by decide, by decide⟩
    · change _ < _; decide
    · exact exOrigin_ok
    · exact exSigEntry_ok
    · exact ⟨⟨9, [9], rfl, by decide⟩, by decide, by decide, by decide⟩
  outs := rfl
  fields := by
    intro fs hfs
    simp only [exDoc, List.mem_singleton] at hfs
    subst hfs
    refine ⟨?_, by decide⟩
    intro f hf
    simp only [List.mem_cons, List.not_mem_nil, or_false] at hf
    rcases hf with rfl | rfl
    · exact exOrigin_ok
    · change _ < _; decide

/-- C57, C55 on the document: it is read, and the fee is 5000000000 - 4999990000. -/
example (junk : Nat → Bytes) : (PSBT.fromStream junk {} (.of (exDoc.bytes ++ [1, 2]))).1.Holds exDoc ∧
    (PSBT.fromStream junk {} (.of (exDoc.bytes ++ [1, 2]))).1.fee = .ok 10000 := by
  refine ⟨(C57_parse_partial junk PSBT.clean_fresh exDoc exDoc_ok [1, 2]).2.1, ?_⟩
  rw [C55_parsed_partial junk PSBT.clean_fresh exDoc exDoc_ok [1, 2] [exOut] (.cons rfl .nil) (by decide) (by decide) (by decide)]
  rfl

/-- C56: the pairs of the document are as in `C56_recorded`. -/
example : Maps (txBytes exPsbtTx) [[([0xfc, 1], [5])], [InField.pair (.prevTx exTxSpec)], []]
    (PSBT.fromStream (fun _ => []) {} (.of (exDoc.bytes ++ [1]))).1.tx := by
  have h := (C57_parse_partial (fun _ => []) PSBT.clean_fresh exDoc exDoc_ok [1]).2.1.tx
  have h1 := h.ins.length_eq
  have h2 := h.outs.length_eq
  refine ⟨by rw [exPsbtTx_length]; decide, by rw [h1, h2]; rfl, by rw [h1, h2]; decide, ?_⟩
  · intro m hm q hq
    simp only [List.mem_cons, List.not_mem_nil, or_false] at hm
    rcases hm with rfl | rfl | rfl
    · rw [List.mem_singleton.mp hq]; exact ⟨by decide, by decide, by decide⟩
    · rw [List.mem_singleton.mp hq]; exact ⟨by decide, by decide, by decide⟩
    · cases hq

/-! ### Outside the limits -/

/-- C57 is false for 255 inputs and outputs together: the number of sections, one more, is kept in 8 bits, and the parse never ends with DONE. -/
theorem C57_255_sections (junk : Nat → Bytes) {p : PSBT} (hp : p.Clean) (bs : Bytes)
    (h : (PSBT.fromStream junk p (.of bs)).1.tx.txIns.length + (PSBT.fromStream junk p (.of bs)).1.tx.txOuts.length = 255) :
    (PSBT.fromStream junk p (.of bs)).1.status ≠ .done := by
  intro hd
  obtain ⟨vb, maps, rest, t, ms, e, ha, hpar⟩ := PSBT.parse_sound junk hp hd
  rw [hpar.tx] at h
  have h1 := ha.sections
  have h2 := ha.pos
  rw [show 1 + t.txIns.length + t.txOuts.length = 256 by omega, show (UInt8.ofNat 256).toNat = 0 from rfl] at h1
  omega

/-- C57 is false for values of 252 bytes: a spent output of this size is taken for another one, with another amount and script, if the script
begins with any byte `b` and the byte 241. -/
theorem C57_utxo_252 (junk : Nat → Bytes) {p : PSBT} (hp : p.Clean) (x : Transaction) (hx : WireTx x) (i : In) (w : Out) (hi : x.ins = [i]) (ho : x.outs = [w])
    (hsz : (txBytes x).length < 2 ^ 31) (hmis : misread (txBytes x).length = 0) (a : Nat) (b : UInt8) (s : Bytes) (ha : a < 2 ^ 64) (hs : s.length = 241) :
    ∃ m, (PSBT.fromStream junk p (.of (psbtBytes (txBytes x) [] [[([1], outBytes ⟨a, b :: 241 :: s⟩)], []]))).1.status = .done ∧
      (PSBT.fromStream junk p (.of (psbtBytes (txBytes x) [] [[([1], outBytes ⟨a, b :: 241 :: s⟩)], []]))).1.ins = [m] ∧
      m.txOut.Holds ⟨a / 2 ^ 16 + 243 * 2 ^ 48 + b.toNat * 2 ^ 56, s⟩ := by
  have hb := b.toNat_lt
  have hout : (outBytes ⟨a, b :: 241 :: s⟩).length = 252 := by
    simp [outBytes, varBytes, compactSize, length_leBytes, hs]
  have hv : (outBytes ⟨a, b :: 241 :: s⟩).drop 2 = outBytes ⟨a / 2 ^ 16 + 243 * 2 ^ 48 + b.toNat * 2 ^ 56, s⟩ := by
    unfold outBytes varBytes compactSize
    simp only [List.length_cons, hs, Nat.reduceAdd, Nat.reduceLT, ↓reduceIte, leBytes, List.cons_append, List.nil_append, List.drop_succ_cons, List.drop_zero]
    simp only [List.cons.injEq, and_true, ← UInt8.toNat_inj, UInt8.toNat_ofNat', show UInt8.toNat 241 = 241 from rfl]
    refine ⟨?_, ?_, ?_, ?_, ?_, ?_, ?_, ?_⟩ <;> omega
  have hrd := readTx_complete x hx (by rw [hi]; simp) (by rw [hi]; simp) (by rw [ho]; simp) []
  rw [List.append_nil] at hrd
  have hfe := Tx.feed p.txStart [] (txBytes x) (Or.inl ⟨rfl, rfl⟩)
  unfold Tx.Out at hfe
  rw [List.nil_append, hrd] at hfe
  obtain ⟨g1, g2, -⟩ := hfe
  generalize htt : (p.txStart.fromStream (.of (txBytes x))).1 = t at g1 g2
  have hli := g2.ins.length_eq
  have hlo := g2.outs.length_eq
  rw [hi] at hli
  rw [ho] at hlo
  obtain ⟨ti, hti⟩ := List.length_eq_one_iff.mp hli
  obtain ⟨A, B, hacc, hA, hB, hC⟩ := PSBT.accepts_of_safe junk p (txBytes x) [] [[([1], outBytes ⟨a, b :: 241 :: s⟩)]] [[]] t
    (fun _ _ m => m.txOut.Holds ⟨a / 2 ^ 16 + 243 * 2 ^ 48 + b.toNat * 2 ^ 56, s⟩) (fun _ _ => True) hsz (by rw [hmis, List.drop_zero, htt]) g1 (by rw [hli, hlo]; simp) (by simp)
    (by
      rw [hti]
      refine .cons ⟨?_, 1, rfl, fun jk => ?_⟩ .nil
      · intro q hq
        rw [List.mem_singleton.mp hq]
        exact ⟨by simp, by simp, by rw [hout]; decide⟩
      · have hfe := TxOut.feed {} [] (outBytes ⟨a / 2 ^ 16 + 243 * 2 ^ 48 + b.toNat * 2 ^ 56, s⟩) (Or.inl ⟨⟨rfl, rfl⟩, rfl⟩)
        have hrd := codecOut.complete ⟨a / 2 ^ 16 + 243 * 2 ^ 48 + b.toNat * 2 ^ 56, s⟩ [] ⟨by dsimp only; omega, by dsimp only; omega⟩
        rw [List.append_nil] at hrd
        unfold Fed at hfe
        rw [List.nil_append, hrd] at hfe
        obtain ⟨g1, g2, -⟩ := hfe
        refine ⟨1, { txOut := (({} : TxOut).fromStream (.of (outBytes ⟨a / 2 ^ 16 + 243 * 2 ^ 48 + b.toNat * 2 ^ 56, s⟩))).1 }, ?_, by decide, g2⟩
        unfold InMeta.add
        rw [if_neg (by decide), if_pos rfl, if_neg (by decide), drop_dataPos _ (by rw [hout]; decide), hout, show misread 252 = 2 by decide, hv]
        change (({} : TxOut).fromStream { bytes := outBytes _ }).1.status = _ at g1
        dsimp only
        rw [if_neg (by rw [g1]; decide), if_neg (by rw [g1]; decide)])
    (by rw [hlo]; rfl) (by simp [OutSafe])
  have hpar := PSBT.parse_complete junk hp hacc []
  have e : psbtMagic ++ pairBytes ([0], txBytes x) ++ mapsBytes ([] :: ([[([1], outBytes ⟨a, b :: 241 :: s⟩)]] ++ [[]])) ++ [] =
      psbtBytes (txBytes x) [] [[([1], outBytes ⟨a, b :: 241 :: s⟩)], []] := by
    unfold psbtBytes mapsBytes
    rw [List.flatMap_cons, List.append_nil]
    simp only [List.append_assoc]
    rfl
  rw [e] at hpar
  rw [hti] at hB hA
  obtain ⟨m, hm⟩ := List.length_eq_one_iff.mp hA
  rw [hm] at hB
  cases hB with
  | cons h _ => exact ⟨m, hpar.status, by rw [hpar.ins, hm], h⟩

/-- C56 is false in one respect: an output given directly (key `01`, for segwit inputs) replaces one that was taken from an authenticated
previous transaction, whatever it says. -/
theorem C56_witness_overrides (junk : Nat → Bytes) {p : PSBT} (hp : p.Clean) (d : PsbtDoc) (hd : d.Ok) (rest : Bytes) (i : In) (t : Transaction) (o : Out)
    (hi : d.tx.ins = [i]) (hf : d.ins = [[.prevTx t, .utxo o]]) :
    ∃ m, (PSBT.fromStream junk p (.of (d.bytes ++ rest))).1.ins = [m] ∧ m.txOut.Holds o := by
  have h := (C57_parse_partial junk hp d hd rest).2.1.ins
  rw [hi, hf] at h
  generalize (PSBT.fromStream junk p (.of (d.bytes ++ rest))).1.ins = l at h ⊢
  cases h with
  | cons h1 h2 =>
    cases h2
    have e := h1.spent
    dsimp only at e
    have : lastOf (InField.spent i.prevIndex) [InField.prevTx t, .utxo o] = some o := by
      rw [show [InField.prevTx t, .utxo o] = [.prevTx t] ++ [.utxo o] from rfl, lastOf_snoc]
      rfl
    rw [this] at e
    exact ⟨_, rfl, e⟩

/-- After a parse that ended DONE, a second one that fails at the first byte leaves an object whose `fee()` and destructor read memory that has been
given back. -/
theorem C55_after_failure (junk : Nat → Bytes) {p : PSBT} (hp : p.Clean) (h1 : p.tx.txIns ≠ []) (b : UInt8) (bs : Bytes) (hb : b ≠ 0x70) :
    (PSBT.fromStream junk p (.of (b :: bs))).1.status = .failed ∧ (PSBT.fromStream junk p (.of (b :: bs))).1.fee = .ub ∧
      (PSBT.fromStream junk p (.of (b :: bs))).1.release = .ub := by
  have e : (PSBT.fromStream junk p (.of (b :: bs))) = p.start.finish .failed 1 (.of bs) := by
    rw [PSBT.fromStream_eq junk hp]
    have : PSBT.readMagic PSBT.magic 0 (.of (b :: bs)) = (false, 1, .of bs) := by
      unfold PSBT.magic PSBT.readMagic
      simp [PStream.avail, PStream.readByte, PStream.of, hb]
    rw [this]
  rw [e, PSBT.start_eq hp.status]
  obtain ⟨i, is, hi⟩ := List.exists_cons_of_ne_nil h1
  refine ⟨rfl, ?_, ?_⟩
  · unfold PSBT.finish PSBT.fee
    change (PSBT.sumInputs p.tx.txIns [] 0 >>= _) = C.ub
    rw [hi]
    rfl
  · unfold PSBT.release PSBT.finish
    rw [if_neg]
    rintro ⟨h, -⟩
    change p.tx.txIns.length ≤ 0 at h
    rw [hi] at h
    simp at h

example : exPsbtTx.ins = [⟨hash256 (legacyBytes exTxSpec), 0, [], 0xfffffffe, []⟩] ∧ exPsbtTx.outs = [⟨4999990000, [0x51]⟩] ∧ misread (txBytes exPsbtTx).length = 0 :=
  ⟨rfl, rfl, by rw [exPsbtTx_length]; decide⟩

end UB
