import Verif.Lemmas.Pieces
import Verif.Props.Serialize

/-
C13, C14 serialize/parse round trips; C15 chunked parsing; C16 truncation and sticky failure; C17 soundness.
-/

namespace UB
open Spec

/-! ### C13 -/

/-- What a fresh object gets from its constructor, or has after a completed parse. -/
theorem script_ready_fresh : ({} : Script).Ready := ⟨rfl, rfl⟩
theorem script_ready_holds (sc : Script) (d : Bytes) (h1 : sc.status = .done) (h2 : sc.Holds d) : sc.Ready := ⟨h1, by rw [h2.2, h2.1]⟩

/-- C13 for scripts below 2^31 bytes: serializing a script and parsing the result, followed by anything, into any
object which is not in the middle of a parse. Missing: scripts of 2^31..2^32 bytes, which the parser refuses
(`C13_script_2G_refused`). -/
theorem C13_script_partial (src dst : Script) (d : Bytes) (hs : src.Holds d) (hl : d.length < 2 ^ 31) (hd : dst.Ready) (rest : Bytes) :
    ∃ bs, src.toStream none 0 = .ok bs ∧ bs.length = src.length ∧
      (dst.fromStream (.of (bs ++ rest))).1.status = .done ∧ (dst.fromStream (.of (bs ++ rest))).1.Holds d ∧
      (dst.fromStream (.of (bs ++ rest))).2.1 = bs.length ∧ (dst.fromStream (.of (bs ++ rest))).2.2 = .of rest := by
  refine ⟨varBytes d, Script.toStream_eq src d hs (by omega) none 0, (src.length_eq d hs (by omega)).symm, ?_⟩
  have hne : varBytes d ++ rest ≠ [] := by
    have := compactSize_length d.length
    intro h
    have := congrArg List.length h
    rw [varBytes, List.length_append, List.length_append, List.length_nil] at this
    omega
  have h := Script.feed dst [] (varBytes d ++ rest) (Or.inl ⟨hd, rfl, hne⟩)
  unfold Script.Outcome at h
  rw [List.nil_append, codecVar.complete d rest hl] at h
  obtain ⟨h1, h2, _, h4, h5⟩ := h
  exact ⟨h1, h2, by rw [List.length_append] at h4; omega, h5⟩

/-- C13: the parser refuses every script with a length of 2^31 or more in a 4-byte length prefix. -/
theorem C13_script_2G_refused (dst : Script) (hd : dst.Ready) (a b c e : UInt8) (he : 0x80 ≤ e) (rest : Bytes) :
    (dst.fromStream (.of (0xfe :: a :: b :: c :: e :: rest))).1.status ≠ .done := by
  have h := Script.feed dst [] (0xfe :: a :: b :: c :: e :: rest) (Or.inl ⟨hd, rfl, by simp⟩)
  unfold Script.Outcome at h
  have hb : readVar ([] ++ (0xfe :: a :: b :: c :: e :: rest)) = .bad := by
    have he' : 128 ≤ e.toNat := he
    have hv : 2 ^ 31 ≤ leValue [a, b, c, e] := by
      simp only [leValue_cons, leValue_nil]; omega
    have hp : prefixValue 0xfe (a :: b :: c :: e :: rest) = leValue [a, b, c, e] := by
      unfold prefixValue
      rw [show extraBytes 0xfe = 4 from by decide]
      rfl
    simp only [readVar, List.nil_append]
    rw [if_neg (by decide), if_neg (by rw [show extraBytes 0xfe = 4 from by decide]; simp), hp, if_pos (Or.inr hv)]
  rw [hb] at h
  intro hcon
  have h' : Status.Stopped _ := h.1
  rw [hcon] at h'
  exact not_stopped_done h'

/-- C13 for witness stacks with elements below 2^31 bytes. -/
theorem C13_witness (src dst : Witness) (items : List Bytes) (hs : src.Holds items) (hn : items.length < 253) (hl : ∀ d ∈ items, d.length < 2 ^ 31)
    (hd : dst.status = .done) (rest : Bytes) :
    ∃ bs, src.toStream none 0 = .ok bs ∧ bs.length = src.length ∧
      (dst.fromStream (.of (bs ++ rest))).1.status = .done ∧ (dst.fromStream (.of (bs ++ rest))).1.Holds items ∧
      (dst.fromStream (.of (bs ++ rest))).2.1 = bs.length ∧ (dst.fromStream (.of (bs ++ rest))).2.2 = .of rest := by
  refine ⟨witnessBytes items, Witness.toStream_eq src items hs (by omega) none 0, (src.length_eq items hs (by omega)).symm, ?_⟩
  have hne : witnessBytes items ++ rest ≠ [] := by
    have := compactSize_length items.length
    intro h
    have := congrArg List.length h
    rw [witnessBytes, List.length_append, List.length_append, List.length_nil] at this
    omega
  have h := Witness.feed dst [] (witnessBytes items ++ rest) (Or.inl ⟨hd, rfl, hne⟩)
  unfold Witness.Outcome at h
  rw [List.nil_append, codecWitness.complete items rest ⟨hn, hl⟩] at h
  obtain ⟨h1, h2, h4, h5⟩ := h
  exact ⟨h1, h2, by rw [List.length_append] at h4; omega, h5⟩

/-- C13: a witness stack with an item of each kind meets the hypotheses. -/
example : ∃ src : Witness, src.Holds [[], [1, 2], List.replicate 300 7] :=
  ⟨{ numElements := 3, arr := [[], [1, 2], List.replicate 300 7].flatMap varBytes }, rfl, rfl⟩

/-! ### C14 -/

theorem Spec.WireTx.small {x : Transaction} (h : WireTx x) (hi : x.ins.length < 253) (ho : x.outs.length < 253) : SmallTx x :=
  ⟨hi, ho, fun i hx => by have := (h.ins i hx).script; omega, fun o hx => by have := (h.outs o hx).script; omega, fun i hx => (h.items i hx).1,
    fun i hx e he => by have := (h.items i hx).2 e he; omega⟩

/-- C14 for transactions with 1..252 inputs, fewer than 253 outputs and witness items per input, and scripts and
items below 2^31 bytes: serializing a transaction and parsing the result, followed by anything, into any object
which is not in the middle of a parse. Missing: larger counts, for which it is false (`C14_many_inputs_lost`). -/
theorem C14_tx_partial (src dst : Tx) (x : Transaction) (hs : src.Holds x) (hw : WireTx x) (h0 : x.ins ≠ []) (hi : x.ins.length < 253) (ho : x.outs.length < 253)
    (hd : dst.status = .done) (rest : Bytes) :
    src.toStream none 0 = .ok (txBytes x) ∧ (txBytes x).length = src.length ∧
      (dst.fromStream (.of (txBytes x ++ rest))).1.status = .done ∧ (dst.fromStream (.of (txBytes x ++ rest))).1.Holds x ∧
      (dst.fromStream (.of (txBytes x ++ rest))).2.1 = (txBytes x).length ∧ (dst.fromStream (.of (txBytes x ++ rest))).2.2 = .of rest := by
  have hsm := hw.small hi ho
  refine ⟨Tx.toStream_eq src x hs hsm none 0, (C12_tx src x hs (by omega) (by omega) hsm.inScripts hsm.outScripts fun i hx => by have := (hw.items i hx).1; omega).symm, ?_⟩
  have h := Tx.feed dst [] (txBytes x ++ rest) (Or.inl ⟨hd, rfl⟩)
  unfold Tx.Out at h
  rw [List.nil_append, readTx_complete x hw h0 hi ho rest] at h
  obtain ⟨h1, h2, h4, h5⟩ := h
  exact ⟨h1, h2, by rw [List.length_append, List.length_nil] at h4; omega, h5⟩

/-- C14 for inputs. -/
theorem C14_txin (src dst : TxIn) (i : In) (hs : src.HoldsBody i) (hv : ValidIn i) (hd : dst.Ready) (rest : Bytes) :
    src.toStream none 0 = .ok (inBytes i) ∧ (inBytes i).length = src.length ∧
      (dst.fromStream (.of (inBytes i ++ rest))).1.status = .done ∧ (dst.fromStream (.of (inBytes i ++ rest))).1.HoldsBody i ∧
      (dst.fromStream (.of (inBytes i ++ rest))).2.1 = (inBytes i).length ∧ (dst.fromStream (.of (inBytes i ++ rest))).2.2 = .of rest := by
  have hl : i.script.length < 2 ^ 64 := by have := hv.script; omega
  refine ⟨TxIn.toStream_eq src i hs hl none 0, (TxIn.length_eq src i hs hl).symm, ?_⟩
  have h := TxIn.feed dst [] (inBytes i ++ rest) (Or.inl ⟨hd, rfl⟩)
  have hc : readIn (inBytes i ++ rest) = .ok { i with witness := [] } rest :=
    codecIn.complete { i with witness := [] } rest ⟨⟨hv.hash, hv.index, hv.script, hv.sequence⟩, rfl⟩
  unfold Fed at h
  rw [List.nil_append, hc] at h
  obtain ⟨h1, h2, h4, h5⟩ := h
  exact ⟨h1, ⟨h2.hash, h2.hash_len, h2.index, h2.script, h2.sequence⟩, by rw [List.length_append] at h4; omega, h5⟩

/-- C14 for outputs. -/
theorem C14_txout (src dst : TxOut) (o : Out) (hs : src.Holds o) (hv : ValidOut o) (hd : dst.Ready) (rest : Bytes) :
    src.toStream none 0 = .ok (outBytes o) ∧ (outBytes o).length = src.length ∧
      (dst.fromStream (.of (outBytes o ++ rest))).1.status = .done ∧ (dst.fromStream (.of (outBytes o ++ rest))).1.Holds o ∧
      (dst.fromStream (.of (outBytes o ++ rest))).2.1 = (outBytes o).length ∧ (dst.fromStream (.of (outBytes o ++ rest))).2.2 = .of rest := by
  have hl : o.script.length < 2 ^ 64 := by have := hv.script; omega
  refine ⟨TxOut.toStream_eq src o hs hl none 0, (TxOut.length_eq src o hs hl).symm, ?_⟩
  have h := TxOut.feed dst [] (outBytes o ++ rest) (Or.inl ⟨hd, rfl⟩)
  unfold Fed at h
  rw [List.nil_append, codecOut.complete o rest hv] at h
  obtain ⟨h1, h2, h4, h5⟩ := h
  exact ⟨h1, h2, by rw [List.length_append] at h4; omega, h5⟩

/-- The byte behind the version in the bytes of a cut segwit transaction. -/
theorem fragile_byte {bs : Bytes} (h : Fragile bs) : bs[4]? = some 0 := by
  obtain ⟨hdr, n, v, q, _, _, _, ⟨vb, h1, _, _, ⟨hc, _⟩ | ⟨_, rfl⟩⟩, rfl, _⟩ := h
  · cases hc
  · rw [List.append_assoc, List.getElem?_append_right (by omega)]; simp [h1]

theorem holds_inj {t : Tx} {x y : Transaction} (hx : t.Holds x) (hy : t.Holds y) : x.ins.length = y.ins.length ∧ x.ins.map (·.prevHash) = y.ins.map (·.prevHash) := by
  have h1 := hx.ins
  have h2 := hy.ins
  refine ⟨h1.length_eq.symm.trans h2.length_eq, ?_⟩
  generalize t.txIns = l at h1 h2
  generalize x.ins = xs at h1
  generalize y.ins = ys at h2
  induction h1 generalizing ys with
  | nil => cases h2; rfl
  | cons a _ ih =>
    cases h2 with
    | cons b hb => simp only [List.map_cons, ← a.body.hash, ← b.body.hash, ih _ hb]

/-- C14 is false from 253 inputs on: the count, correctly written as `fd` and two bytes, is read back as one byte.
(Transaction.cpp:310-315 moreover writes only its first byte.) A first input whose previous hash does not begin with
`fd` excludes coincidences. -/
theorem C14_many_inputs_lost (dst : Tx) (x : Transaction) (hd : dst.status = .done) (h1 : 253 ≤ x.ins.length) (h2 : x.ins.length < 65536)
    (hh : ∀ i ∈ x.ins.head?, i.prevHash.head? ≠ some 0xfd) (rest : Bytes) :
    ¬ ((dst.fromStream (.of (legacyBytes x ++ rest))).1.status = .done ∧ (dst.fromStream (.of (legacyBytes x ++ rest))).1.Holds x) := by
  rintro ⟨hst, hx⟩
  have h := Tx.feed dst [] (legacyBytes x ++ rest) (Or.inl ⟨hd, rfl⟩)
  unfold Tx.Out at h
  rw [List.nil_append] at h
  have hshape : legacyBytes x ++ rest = leBytes 4 x.version ++ (0xfd :: (leBytes 2 x.ins.length ++ (x.ins.flatMap inBytes ++
      (compactSize x.outs.length ++ (x.outs.flatMap outBytes ++ (leBytes 4 x.locktime ++ rest)))))) := by
    unfold legacyBytes
    rw [compactSize_2 (by omega) h2]
    simp
  generalize htail : x.ins.flatMap inBytes ++ (compactSize x.outs.length ++ (x.outs.flatMap outBytes ++ (leBytes 4 x.locktime ++ rest))) = tail at hshape
  cases e : readTx (legacyBytes x ++ rest) with
  | more =>
    rw [e] at h
    rcases h with ⟨g1, _⟩ | ⟨g1, _⟩
    · rw [hst] at g1; cases g1
    · have := fragile_byte g1
      rw [hshape, List.getElem?_append_right (by simp)] at this
      simp at this
  | bad =>
    rw [e] at h
    have h' : Status.Stopped _ := h.1
    rw [hst] at h'
    exact not_stopped_done h'
  | ok y r =>
    rw [e] at h
    obtain ⟨k1, k2⟩ := holds_inj hx h.2.1
    rw [hshape] at e
    unfold readTx at e
    rw [if_neg (by simp), List.drop_left' (by simp)] at e
    simp only at e
    rw [if_pos (by decide)] at e
    have hv : leValue ((leBytes 4 x.version ++ 0xfd :: (leBytes 2 x.ins.length ++ tail)).take 4) < 2 ^ 32 := by
      rw [List.take_left' (by simp)]
      have := leValue_lt (leBytes 4 x.version)
      simpa using this
    obtain ⟨-, -, a3, -, -, a6⟩ := readAfterCount_sound (by decide) hv e
    have a3' : y.ins.length = 253 := a3
    have hn : x.ins.length = 253 := by omega
    obtain ⟨i, is, hi⟩ := List.exists_cons_of_ne_nil (l := x.ins) (by intro h0; rw [h0] at hn; cases hn)
    obtain ⟨j, js, hj⟩ := List.exists_cons_of_ne_nil (l := y.ins) (by intro h0; rw [h0] at a3'; cases a3')
    have hij : i.prevHash = j.prevHash := by
      rw [hi, hj] at k2
      exact (List.cons.inj k2).1
    have hjlen : j.prevHash.length = 32 := by
      have h3 := h.2.1.ins
      rw [hj] at h3
      generalize (dst.fromStream (.of (legacyBytes x ++ rest))).1.txIns = l at h3
      cases h3 with
      | cons b _ => rw [← b.body.hash]; exact b.body.hash_len
    rw [hn, hj, show leBytes 2 253 = [0xfd, 0x00] from by decide +kernel] at a6
    have h5 := congrArg List.head? a6
    obtain ⟨b0, bs0, hb⟩ := List.exists_cons_of_ne_nil (l := j.prevHash) (by intro h0; rw [h0] at hjlen; cases hjlen)
    apply hh i (by rw [hi]; rfl)
    rw [hij, hb]
    rw [List.flatMap_cons, inBytes, hb] at h5
    simpa using h5.symm

theorem compactSize_head (n : Nat) (h : n ≠ 1) : ∃ b r, compactSize n = b :: r ∧ b ≠ 1 := by
  unfold compactSize
  split_ifs with h1 h2 h3
  · refine ⟨UInt8.ofNat n, [], rfl, fun he => h ?_⟩
    have := congrArg UInt8.toNat he
    simpa [Nat.mod_eq_of_lt (show n < 256 by omega)] using this
  · exact ⟨0xfd, _, rfl, by decide⟩
  · exact ⟨0xfe, _, rfl, by decide⟩
  · exact ⟨0xff, _, rfl, by decide⟩

/-- C14 is false for transactions without inputs: the zero which counts them is read as the marker of segwit and the number of
outputs as its flag, so that unless there is exactly one output parsing stops with an error, whatever follows. -/
theorem C14_no_inputs_refused (dst : Tx) (x : Transaction) (hd : dst.status = .done) (h0 : x.ins = []) (h1 : x.outs.length ≠ 1) (rest : Bytes) :
    (dst.fromStream (.of (legacyBytes x ++ rest))).1.status.Stopped := by
  have h := Tx.feed dst [] (legacyBytes x ++ rest) (Or.inl ⟨hd, rfl⟩)
  unfold Tx.Out at h
  obtain ⟨b, r, hb, hb1⟩ := compactSize_head x.outs.length h1
  have hshape : legacyBytes x ++ rest = leBytes 4 x.version ++ (0 :: b :: (r ++ (x.outs.flatMap outBytes ++ (leBytes 4 x.locktime ++ rest)))) := by
    unfold legacyBytes
    rw [h0, hb, List.length_nil, compactSize_small (by omega)]
    simp
  have e : readTx (legacyBytes x ++ rest) = .bad := by
    rw [hshape]
    unfold readTx
    rw [if_neg (by simp), List.drop_left' (by simp)]
    simp only
    rw [if_neg (by simp), if_pos hb1]
  rw [List.nil_append, e] at h
  exact h.1

/-- C14 is false for transactions without inputs and with one output too: the parser takes the first byte of the amount for the number of inputs. If the two lowest
bytes of the amount are zero, the parser is content after 12 bytes with a transaction without inputs and outputs, the locktime of which is the middle of the amount. -/
theorem C14_no_inputs_misread (dst : Tx) (x : Transaction) (o : Out) (hd : dst.status = .done) (h0 : x.ins = []) (h1 : x.outs = [o]) (ha : o.amount % 65536 = 0) (rest : Bytes) :
    (dst.fromStream (.of (legacyBytes x ++ rest))).1.status = .done ∧ (dst.fromStream (.of (legacyBytes x ++ rest))).2.1 = 12 ∧
    (dst.fromStream (.of (legacyBytes x ++ rest))).1.Holds ⟨x.version % 2 ^ 32, [], [], o.amount / 65536 % 2 ^ 32⟩ := by
  have h := Tx.feed dst [] (legacyBytes x ++ rest) (Or.inl ⟨hd, rfl⟩)
  unfold Tx.Out at h
  have hshape : legacyBytes x ++ rest = segwitBytes ⟨x.version % 2 ^ 32, [], [], o.amount / 65536 % 2 ^ 32⟩ ++
      (leBytes 2 (o.amount / 2 ^ 48) ++ (varBytes o.script ++ (leBytes 4 x.locktime ++ rest))) := by
    unfold legacyBytes segwitBytes
    rw [h0, h1]
    have e0 : UInt8.ofNat (o.amount % 256) = 0 := by rw [show o.amount % 256 = 0 by omega]; rfl
    have e1 : UInt8.ofNat (o.amount / 256 % 256) = 0 := by rw [show o.amount / 256 % 256 = 0 by omega]; rfl
    have e2 : leBytes 4 (x.version % 2 ^ 32) = leBytes 4 x.version := leBytes_mod 4 _
    have e3 : leBytes 4 (o.amount / 65536 % 2 ^ 32) = leBytes 4 (o.amount / 65536) := leBytes_mod 4 _
    have e4 : leBytes 8 o.amount = [0, 0] ++ (leBytes 4 (o.amount / 65536) ++ leBytes 2 (o.amount / 2 ^ 48)) := by
      simp only [leBytes, e0, e1, Nat.div_div_eq_div_mul]
      norm_num
    simp only [List.flatMap_cons, List.flatMap_nil, outBytes, List.length_nil, List.length_singleton, e2, e3, e4]
    rw [compactSize_small (show 0 < 253 by decide), compactSize_small (show 1 < 253 by decide)]
    simp
  have e := readTx_segwit ⟨x.version % 2 ^ 32, [], [], o.amount / 65536 % 2 ^ 32⟩
    ⟨Nat.mod_lt _ (by decide), Nat.mod_lt _ (by decide), by simp, by simp, by simp⟩ (by simp) (by simp)
    (leBytes 2 (o.amount / 2 ^ 48) ++ (varBytes o.script ++ (leBytes 4 x.locktime ++ rest)))
  rw [List.nil_append, hshape, e] at h
  obtain ⟨g1, g2, g3, -⟩ := h
  rw [hshape]
  refine ⟨g1, ?_, g2⟩
  have hl : (segwitBytes ⟨x.version % 2 ^ 32, [], [], o.amount / 65536 % 2 ^ 32⟩).length = 12 := by
    unfold segwitBytes
    simp [compactSize_small (show 0 < 253 by decide), length_leBytes]
  simp only [List.length_append, hl, List.length_nil] at g3
  omega

/-- C14_no_inputs_misread: one output with 0.65536 bitcoins. -/
example : ∃ (x : Transaction) (o : Out), x.ins = [] ∧ x.outs = [o] ∧ o.amount % 65536 = 0 ∧ o.amount ≠ 0 :=
  ⟨⟨2, [], [⟨65536000, [0x51]⟩], 0⟩, _, rfl, rfl, by decide, by decide⟩

/-- C14: transactions as in `C14_tx_partial` and as in `C14_many_inputs_lost`. -/
example : WireTx exTxSpec ∧ exTxSpec.ins ≠ [] ∧ exTx.Holds exTxSpec :=
  ⟨⟨by decide, by decide, by simp only [exTxSpec, List.forall_mem_cons]; exact ⟨⟨rfl, by decide, by decide, by decide⟩, by simp⟩,
    by simp only [exTxSpec, List.forall_mem_cons]; exact ⟨⟨by decide, by decide⟩, ⟨by decide, by decide⟩, by simp⟩, by decide⟩, by decide, exTx_holds⟩
example : ∃ x : Transaction, 253 ≤ x.ins.length ∧ x.ins.length < 65536 ∧ ∀ i ∈ x.ins.head?, i.prevHash.head? ≠ some 0xfd :=
  ⟨⟨1, List.replicate 300 exIn, [], 0⟩, by decide +kernel⟩

example : ∃ x : Transaction, x.ins = [] ∧ x.outs.length ≠ 1 := ⟨⟨1, [], [⟨1000, [0x51]⟩, ⟨2000, [0x52]⟩], 0⟩, by decide⟩

/-! ### C15 -/

theorem script_step (a : Script) (p c : Bytes) (h : (a.Ready ∧ p = []) ∨ a.Mid p) (hc : c ≠ []) :
    FedU readVar (fun p => ((a.fromStream (.of c)).1.Ready ∧ p = []) ∨ (a.fromStream (.of c)).1.Mid p) (a.fromStream (.of c)).1.Holds
      (a.fromStream (.of c)).1.status (a.fromStream (.of c)).2.1 (a.fromStream (.of c)).2.2 p c := by
  have h1 := Script.feed a p c (h.imp (fun h => ⟨h.1, h.2, hc⟩) id)
  unfold Script.Outcome at h1
  unfold FedU
  cases e : readVar (p ++ c) with
  | more => rw [e] at h1; exact ⟨h1.1.status, Or.inr h1.1, h1.2⟩
  | bad =>
    rw [e] at h1
    refine ⟨h1.1, fun hu => ?_⟩
    obtain ⟨r, e'⟩ := h1.2.1.mp hu
    rw [e'] at e ⊢
    exact ⟨[], r, rfl, readVar_wide e⟩
  | ok d r => rw [e] at h1; exact ⟨h1.1, h1.2.1, h1.2.2.2⟩

/-- C15 for scripts: any cut into non-empty pieces. -/
theorem C15_script (sc : Script) (hr : sc.Ready) (cs : List Bytes) (h0 : cs ≠ []) (hne : ∀ c ∈ cs, c ≠ []) :
    SameParse (feedPieces Script.fromStream (·.status) sc cs).1.status (sc.fromStream (.of cs.flatten)).1.status
      (feedPieces Script.fromStream (·.status) sc cs).2 (sc.fromStream (.of cs.flatten)).2.1
      (∃ d, (feedPieces Script.fromStream (·.status) sc cs).1.Holds d ∧ (sc.fromStream (.of cs.flatten)).1.Holds d) := by
  refine pieces_same (Rel := fun sc p => (sc.Ready ∧ p = []) ∨ sc.Mid p) (rd := readVar) (fun _ => True) ?_
    (fun _ _ _ c h => readVar_mono c h) (fun _ c h => readVar_bad_mono c h) sc cs (Or.inl ⟨hr, rfl⟩) h0 hne (fun _ _ => trivial)
  exact fun a p c h hc _ => script_step a p c h hc

theorem txin_step (a : TxIn) (p c : Bytes) (h : (a.Ready ∧ p = []) ∨ a.Mid p) :
    FedU readIn (fun p => ((a.fromStream (.of c)).1.Ready ∧ p = []) ∨ (a.fromStream (.of c)).1.Mid p) (a.fromStream (.of c)).1.HoldsBody
      (a.fromStream (.of c)).1.status (a.fromStream (.of c)).2.1 (a.fromStream (.of c)).2.2 p c := by
  have h1 := (TxIn.feed a p c h).toU
  unfold FedU at h1 ⊢
  cases e : readIn (p ++ c) with
  | more => rw [e] at h1; exact ⟨h1.1, Or.inr h1.2.1, h1.2.2⟩
  | bad => rw [e] at h1; exact h1
  | ok d r => rw [e] at h1; exact h1

/-- C15 for inputs. -/
theorem C15_txin (t : TxIn) (hr : t.Ready) (cs : List Bytes) (h0 : cs ≠ []) (hne : ∀ c ∈ cs, c ≠ []) :
    SameParse (feedPieces TxIn.fromStream (·.status) t cs).1.status (t.fromStream (.of cs.flatten)).1.status
      (feedPieces TxIn.fromStream (·.status) t cs).2 (t.fromStream (.of cs.flatten)).2.1
      (∃ d, (feedPieces TxIn.fromStream (·.status) t cs).1.HoldsBody d ∧ (t.fromStream (.of cs.flatten)).1.HoldsBody d) := by
  refine pieces_same (Rel := fun t p => (t.Ready ∧ p = []) ∨ t.Mid p) (rd := readIn) (fun _ => True) ?_
    (fun _ _ _ c h => readIn_mono c h) (fun _ c h => readIn_bad_mono c h) t cs (Or.inl ⟨hr, rfl⟩) h0 hne (fun _ _ => trivial)
  exact fun a p c h _ _ => txin_step a p c h

theorem txout_step (a : TxOut) (p c : Bytes) (h : (a.Ready ∧ p = []) ∨ a.Mid p) :
    FedU readOut (fun p => ((a.fromStream (.of c)).1.Ready ∧ p = []) ∨ (a.fromStream (.of c)).1.Mid p) (a.fromStream (.of c)).1.Holds
      (a.fromStream (.of c)).1.status (a.fromStream (.of c)).2.1 (a.fromStream (.of c)).2.2 p c := by
  have h1 := (TxOut.feed a p c h).toU
  unfold FedU at h1 ⊢
  cases e : readOut (p ++ c) with
  | more => rw [e] at h1; exact ⟨h1.1, Or.inr h1.2.1, h1.2.2⟩
  | bad => rw [e] at h1; exact h1
  | ok d r => rw [e] at h1; exact h1

/-- C15 for outputs. -/
theorem C15_txout (t : TxOut) (hr : t.Ready) (cs : List Bytes) (h0 : cs ≠ []) (hne : ∀ c ∈ cs, c ≠ []) :
    SameParse (feedPieces TxOut.fromStream (·.status) t cs).1.status (t.fromStream (.of cs.flatten)).1.status
      (feedPieces TxOut.fromStream (·.status) t cs).2 (t.fromStream (.of cs.flatten)).2.1
      (∃ d, (feedPieces TxOut.fromStream (·.status) t cs).1.Holds d ∧ (t.fromStream (.of cs.flatten)).1.Holds d) := by
  refine pieces_same (Rel := fun t p => (t.Ready ∧ p = []) ∨ t.Mid p) (rd := readOut) (fun _ => True) ?_
    (fun _ _ _ c h => readOut_mono c h) (fun _ c h => readOut_bad_mono c h) t cs (Or.inl ⟨hr, rfl⟩) h0 hne (fun _ _ => trivial)
  exact fun a p c h _ _ => txout_step a p c h

/-- The bytes so far end inside an item length of several bytes. -/
def Spec.CutInPrefix (bs : Bytes) : Prop := ∃ n es q, Witness.CutAt bs n es q

theorem witness_step (a : Witness) (p c : Bytes) (h : (a.status = .done ∧ p = []) ∨ a.Mid p) (hc : c ≠ [])
    (hsafe : readWitness (p ++ c) = .more → ¬ CutInPrefix (p ++ c)) :
    FedU readWitness (fun p => ((a.fromStream (.of c)).1.status = .done ∧ p = []) ∨ (a.fromStream (.of c)).1.Mid p) (a.fromStream (.of c)).1.Holds
      (a.fromStream (.of c)).1.status (a.fromStream (.of c)).2.1 (a.fromStream (.of c)).2.2 p c := by
  have h1 := Witness.feed a p c (h.imp (fun h => ⟨h.1, h.2, hc⟩) id)
  unfold Witness.Outcome at h1
  unfold FedU
  cases e : readWitness (p ++ c) with
  | more =>
    rw [e] at h1
    obtain ⟨g1, g2, ⟨g3, g4⟩ | ⟨n, es, q, g3, _⟩⟩ := h1
    · exact ⟨g3, Or.inr g4, g1, g2⟩
    · exact absurd ⟨n, es, q, g3⟩ (hsafe e)
  | bad => rw [e] at h1; exact ⟨h1.1, fun hu => Witness.wideWitness_wide _ (h1.2.1.mp hu)⟩
  | ok d r => rw [e] at h1; exact h1

/-- C15 for witnesses when no piece ends inside an item length of several bytes. Missing: pieces which do, where the
claim is false (`C15_witness_cut_prefix`). -/
theorem C15_witness_partial (w : Witness) (hr : w.status = .done) (cs : List Bytes) (h0 : cs ≠ []) (hne : ∀ c ∈ cs, c ≠ [])
    (hcut : ∀ k, ¬ CutInPrefix (cs.take (k + 1)).flatten) :
    SameParse (feedPieces Witness.fromStream (·.status) w cs).1.status (w.fromStream (.of cs.flatten)).1.status
      (feedPieces Witness.fromStream (·.status) w cs).2 (w.fromStream (.of cs.flatten)).2.1
      (∃ d, (feedPieces Witness.fromStream (·.status) w cs).1.Holds d ∧ (w.fromStream (.of cs.flatten)).1.Holds d) := by
  refine pieces_same (Rel := fun w p => (w.status = .done ∧ p = []) ∨ w.Mid p) (rd := readWitness) (fun b => ¬ CutInPrefix b) ?_
    (fun _ _ _ c h => readWitness_mono c h) (fun _ c h => readWitness_bad_mono c h) w cs (Or.inl ⟨hr, rfl⟩) h0 hne (fun k _ => hcut k)
  exact fun a p c h hc hsafe => witness_step a p c h hc hsafe

/-- C15 is false for witnesses in general: a witness of one item of 3 bytes behind a (non-shortest, hence invalid)
length `fd 03 00`. In one piece it is rejected; when the first piece ends after `fd` the first call already reports
DONE with an item which was never sent. -/
theorem C15_witness_cut_prefix :
    (({} : Witness).fromStream (.of [0x01, 0xfd, 0x03, 0x00, 1, 2, 3])).1.status = .failed ∧
    (feedPieces Witness.fromStream (·.status) {} [[0x01, 0xfd], [0x03, 0x00, 1, 2, 3]]).1.status = .done := by decide +kernel

theorem tx_step (a : Tx) (p c : Bytes) (h : a.Ready p) (hsafe : readTx (p ++ c) = .more → ¬ Fragile (p ++ c)) :
    FedU readTx (a.fromStream (.of c)).1.Ready (a.fromStream (.of c)).1.Holds (a.fromStream (.of c)).1.status (a.fromStream (.of c)).2.1 (a.fromStream (.of c)).2.2 p c := by
  have h1 := Tx.feed a p c h
  unfold Tx.Out at h1
  unfold FedU
  cases e : readTx (p ++ c) with
  | more =>
    rw [e] at h1
    rcases h1 with ⟨g1, g2, g3, g4⟩ | ⟨g1, _⟩
    · exact ⟨g1, Or.inr g2, by rw [List.length_append] at g3; omega, g4⟩
    · exact absurd g1 (hsafe e)
  | bad => rw [e] at h1; exact h1
  | ok d r =>
    rw [e] at h1
    exact ⟨h1.1, h1.2.1, by have := h1.2.2.1; rw [List.length_append] at this; omega, h1.2.2.2⟩

/-- C15 for transactions when no piece of a segwit transaction ends between the end of the outputs and the end of the
witnesses, or inside a length of several bytes of the last output script. Missing: such cuts, for which the claim is
false (`C15_tx_cut_fails`). -/
theorem C15_tx_partial (t : Tx) (hr : t.status = .done) (cs : List Bytes) (h0 : cs ≠ []) (hne : ∀ c ∈ cs, c ≠ [])
    (hcut : ∀ k, ¬ Fragile (cs.take (k + 1)).flatten) :
    SameParse (feedPieces Tx.fromStream (·.status) t cs).1.status (t.fromStream (.of cs.flatten)).1.status
      (feedPieces Tx.fromStream (·.status) t cs).2 (t.fromStream (.of cs.flatten)).2.1
      (∃ d, (feedPieces Tx.fromStream (·.status) t cs).1.Holds d ∧ (t.fromStream (.of cs.flatten)).1.Holds d) :=
  pieces_same (Rel := Tx.Ready) (rd := readTx) (fun b => ¬ Fragile b) (fun a p c h _ hsafe => tx_step a p c h hsafe)
    (fun _ _ _ c h => readTx_mono c h) (fun _ c h => readTx_bad_mono c h) t cs (Or.inl ⟨hr, rfl⟩) h0 hne (fun k _ => hcut k)

/-- C15 for transactions without witnesses: any cut into non-empty pieces. The hypothesis says that the byte behind the
version, if there is one, is not the segwit marker. -/
theorem C15_tx_legacy (t : Tx) (hr : t.status = .done) (cs : List Bytes) (h0 : cs ≠ []) (hne : ∀ c ∈ cs, c ≠ []) (hl : cs.flatten[4]? ≠ some 0) :
    SameParse (feedPieces Tx.fromStream (·.status) t cs).1.status (t.fromStream (.of cs.flatten)).1.status
      (feedPieces Tx.fromStream (·.status) t cs).2 (t.fromStream (.of cs.flatten)).2.1
      (∃ d, (feedPieces Tx.fromStream (·.status) t cs).1.Holds d ∧ (t.fromStream (.of cs.flatten)).1.Holds d) := by
  apply C15_tx_partial t hr cs h0 hne
  intro k hf
  apply hl
  have h1 := fragile_byte hf
  have h2 : cs.flatten = (cs.take (k + 1)).flatten ++ (cs.drop (k + 1)).flatten := by
    rw [← List.flatten_append, List.take_append_drop]
  rw [h2, List.getElem?_append_left]
  · exact h1
  · by_contra hcon
    rw [List.getElem?_eq_none (by omega)] at h1
    cases h1

/-- A segwit transaction with one input, no output and a witness of one item. -/
def cutTx : Bytes := [1, 0, 0, 0, 0, 1, 1] ++ List.replicate 36 0 ++ [0, 0xff, 0xff, 0xff, 0xff] ++ [0] ++ [1, 1, 0x51] ++ [0, 0, 0, 0]

/-- C15 is false for segwit transactions in general: with a piece ending at the end of the outputs the parse fails. -/
theorem C15_tx_cut_fails :
    (({} : Tx).fromStream (.of cutTx)).1.status = .done ∧
    (feedPieces Tx.fromStream (·.status) {} [cutTx.take 49, cutTx.drop 49]).1.status = .failed ∧
    (feedPieces Tx.fromStream (·.status) {} (cutTx.map fun b => [b])).1.status = .failed := by decide +kernel

/-- C15: bytes of a legacy transaction, one by one, meet the hypotheses. -/
example : ∃ cs : List Bytes, cs ≠ [] ∧ (∀ c ∈ cs, c ≠ []) ∧ cs.flatten[4]? ≠ some 0 ∧ cs.length = 60 ∧ cs.flatten.length = 60 :=
  ⟨(([1, 0, 0, 0, 1] ++ List.replicate 36 0 ++ [0, 0xff, 0xff, 0xff, 0xff] ++ [1] ++ List.replicate 9 0 ++ [0, 0, 0, 0]) : Bytes).map fun b => [b], by decide +kernel⟩

/-- C15: the same for the other object kinds. -/
example : ({} : Script).Ready ∧ ({} : TxIn).Ready ∧ ({} : TxOut).Ready ∧ ({} : Witness).status = .done ∧ ({} : Tx).status = .done := by
  refine ⟨⟨rfl, rfl⟩, ⟨rfl, by simp, rfl⟩, ⟨rfl, rfl⟩, rfl, rfl⟩

/-- C15: an input which has already been used for parsing meets the hypotheses again. -/
example (t : TxIn) (i : In) (h : t.HoldsBody i) (hst : t.status = .done) : t.Ready := ⟨hst, h.hash_len, by rw [h.script.2, h.script.1]⟩

/-! ### C16 -/

/-- A reader which has enough with `k` bytes does not use more. -/
theorem truncated {β : Type} {rd : Bytes → Outcome β} (mono : ∀ q x r c, rd q = .ok x r → rd (q ++ c) = .ok x (r ++ c)) {c : Bytes} {k n : Nat} {d : β} {r : Bytes}
    (h : rd c = .ok d r) (hn : n + r.length = c.length) (hk : k < n) (d' : β) (r' : Bytes) : rd (c.take k) ≠ .ok d' r' := by
  intro h'
  have h2 := mono _ _ _ (c.drop k) h'
  rw [List.take_append_drop, h] at h2
  cases h2
  rw [List.length_append, List.length_drop] at hn
  omega

theorem Script.empty_not_done (sc : Script) (hr : sc.Ready) : (sc.fromStream (.of [])).1.status ≠ .done := by
  obtain ⟨h1, h2, h3⟩ := sc.start_ready hr
  have h4 : sc.start.scriptLen = 0 := by
    unfold Script.start
    rw [if_pos hr.1]
    unfold Script.clear
    simp only
    split_ifs with h
    · rfl
    · simp only; omega
  rw [Script.fromStream_eq _ _ (by rw [hr.1]; simp)]
  unfold Script.readPrefix
  simp only [PStream.avail_of, List.isEmpty_nil, Bool.not_true, Bool.false_eq_true, false_and, if_false]
  have hl : ∀ n, lenLoop n sc.start.scriptLen (sc.start.bytesParsed + 0) (.of []) = some (0, 0, .of []) := by
    intro n
    rw [h4, h2]
    cases n <;> simp [lenLoop]
  rw [Script.rest_some _ _ _ _ _ _ (hl _)]
  unfold Script.alloc
  simp only [h2, Nat.sub_zero, Nat.add_zero]
  simp only [gt_iff_lt, Nat.lt_irrefl, false_and, and_false, if_false]
  by_cases hz : sc.start.lenLen = 0
  · rw [if_pos ⟨hz.symm, by rw [hz]; decide⟩]; simp
  · rw [if_neg (fun h => hz h.1.symm)]
    unfold Script.readBody
    simp only [PStream.readN_of, List.take_nil, List.drop_nil, h2, writeAt, if_true, List.length_nil]
    rw [if_neg (by omega), h1]
    simp

/-- A completed script parse read a script. -/
theorem Script.done_read {sc : Script} (hr : sc.Ready) {bs : Bytes} (h : (sc.fromStream (.of bs)).1.status = .done) :
    ∃ d r, readVar bs = .ok d r ∧ (sc.fromStream (.of bs)).1.Holds d ∧ (sc.fromStream (.of bs)).2.1 + r.length = bs.length ∧ (sc.fromStream (.of bs)).2.2 = .of r := by
  by_cases hb : bs = []
  · subst hb; exact absurd h (sc.empty_not_done hr)
  · have h1 := Script.feed sc [] bs (Or.inl ⟨hr, rfl, hb⟩)
    unfold Script.Outcome at h1
    rw [List.nil_append] at h1
    cases e : readVar bs with
    | more => rw [e] at h1; have := h1.1.status; rw [h] at this; cases this
    | bad => rw [e] at h1; have h' : Status.Stopped _ := h1.1; rw [h] at h'; exact absurd h' not_stopped_done
    | ok d r => rw [e] at h1; exact ⟨d, r, rfl, h1.2.1, h1.2.2.2⟩

theorem fed_done {β : Type} {rd : Bytes → Outcome β} {M : Bytes → Prop} {D : β → Prop} {st : Status} {n : Nat} {s : PStream} {bs : Bytes}
    (h : Fed rd M D st n s [] bs) (hst : st = .done) : ∃ d r, rd bs = .ok d r ∧ D d ∧ n + r.length = bs.length ∧ s = .of r := by
  unfold Fed at h
  rw [List.nil_append] at h
  cases e : rd bs with
  | more => rw [e] at h; have := h.1; rw [hst] at this; cases this
  | bad => rw [e] at h; have h' : Status.Stopped _ := h.1; rw [hst] at h'; exact absurd h' not_stopped_done
  | ok d r => rw [e] at h; exact ⟨d, r, rfl, h.2⟩

/-- C16 for scripts: no proper prefix of the bytes used by a completed parse gives a completed parse. -/
theorem C16_script_truncated (sc sc' : Script) (hr : sc.Ready) (hr' : sc'.Ready) (bs : Bytes) (h : (sc.fromStream (.of bs)).1.status = .done) (k : Nat)
    (hk : k < (sc.fromStream (.of bs)).2.1) : (sc'.fromStream (.of (bs.take k))).1.status ≠ .done := by
  intro h'
  obtain ⟨d, r, h1, _, h2, _⟩ := Script.done_read hr h
  obtain ⟨d', r', h3, _⟩ := Script.done_read hr' h'
  exact truncated (fun _ _ _ c h => readVar_mono c h) h1 h2 hk d' r' h3

theorem C16_txin_truncated (t t' : TxIn) (hr : t.Ready) (hr' : t'.Ready) (bs : Bytes) (h : (t.fromStream (.of bs)).1.status = .done) (k : Nat)
    (hk : k < (t.fromStream (.of bs)).2.1) : (t'.fromStream (.of (bs.take k))).1.status ≠ .done := by
  intro h'
  obtain ⟨d, r, h1, _, h2, _⟩ := fed_done (TxIn.feed t [] bs (Or.inl ⟨hr, rfl⟩)) h
  obtain ⟨d', r', h3, _⟩ := fed_done (TxIn.feed t' [] _ (Or.inl ⟨hr', rfl⟩)) h'
  exact truncated (fun _ _ _ c h => readIn_mono c h) h1 h2 hk d' r' h3

theorem C16_txout_truncated (t t' : TxOut) (hr : t.Ready) (hr' : t'.Ready) (bs : Bytes) (h : (t.fromStream (.of bs)).1.status = .done) (k : Nat)
    (hk : k < (t.fromStream (.of bs)).2.1) : (t'.fromStream (.of (bs.take k))).1.status ≠ .done := by
  intro h'
  obtain ⟨d, r, h1, _, h2, _⟩ := fed_done (TxOut.feed t [] bs (Or.inl ⟨hr, rfl⟩)) h
  obtain ⟨d', r', h3, _⟩ := fed_done (TxOut.feed t' [] _ (Or.inl ⟨hr', rfl⟩)) h'
  exact truncated (fun _ _ _ c h => readOut_mono c h) h1 h2 hk d' r' h3

theorem Witness.done_read {w : Witness} (hr : w.status = .done) {bs : Bytes} (hc : ¬ CutInPrefix bs) (h : (w.fromStream (.of bs)).1.status = .done) :
    ∃ d r, readWitness bs = .ok d r ∧ (w.fromStream (.of bs)).1.Holds d ∧ (w.fromStream (.of bs)).2.1 + r.length = bs.length ∧ (w.fromStream (.of bs)).2.2 = .of r := by
  by_cases hb : bs = []
  · subst hb
    have := (Witness.fromStream_empty w hr).1
    rw [h] at this; cases this
  · have h1 := Witness.feed w [] bs (Or.inl ⟨hr, rfl, hb⟩)
    unfold Witness.Outcome at h1
    rw [List.nil_append] at h1
    cases e : readWitness bs with
    | more =>
      rw [e] at h1
      obtain ⟨_, _, ⟨g3, _⟩ | ⟨n, es, q, g3, _⟩⟩ := h1
      · rw [h] at g3; cases g3
      · exact absurd ⟨n, es, q, g3⟩ hc
    | bad => rw [e] at h1; have h' : Status.Stopped _ := h1.1; rw [h] at h'; exact absurd h' not_stopped_done
    | ok d r => rw [e] at h1; exact ⟨d, r, rfl, h1.2⟩

/-- C16 for witnesses which are not cut inside an item length of several bytes. Missing: such cuts, for which it is false
(`C16_witness_truncated_done`). -/
theorem C16_witness_truncated_partial (w w' : Witness) (hr : w.status = .done) (hr' : w'.status = .done) (bs : Bytes) (h : (w.fromStream (.of bs)).1.status = .done) (k : Nat)
    (hk : k < (w.fromStream (.of bs)).2.1) (hb : ¬ CutInPrefix bs) (hc : ¬ CutInPrefix (bs.take k)) : (w'.fromStream (.of (bs.take k))).1.status ≠ .done := by
  intro h'
  obtain ⟨d, r, h1, _, h2, _⟩ := Witness.done_read hr hb h
  obtain ⟨d', r', h3, _⟩ := Witness.done_read hr' hc h'
  exact truncated (fun _ _ _ c h => readWitness_mono c h) h1 h2 hk d' r' h3

/-- C16 is false for witnesses: of every witness with one item of 253 bytes the first two bytes are taken for a complete witness. -/
theorem C16_witness_truncated_done (d : Bytes) (hd : d.length = 253) :
    (({} : Witness).fromStream (.of (witnessBytes [d]))).1.status = .done ∧ (({} : Witness).fromStream (.of (witnessBytes [d]))).2.1 = 257 ∧
    (({} : Witness).fromStream (.of ((witnessBytes [d]).take 2))).1.status = .done ∧ (({} : Witness).fromStream (.of ((witnessBytes [d]).take 2))).2.1 = 2 := by
  have hsrc : ({ numElements := 1, arr := [d].flatMap varBytes } : Witness).Holds [d] := ⟨rfl, rfl⟩
  have h := C13_witness _ {} [d] hsrc (by simp) (by simp [hd]) rfl []
  obtain ⟨bs, h1, h2, h3, h4, h5, _⟩ := h
  rw [Witness.toStream_eq _ [d] hsrc (by simp)] at h1
  have e : witnessBytes [d] = bs := by cases h1; rfl
  have hw : witnessBytes [d] = [0x01, 0xfd] ++ ([0xfd, 0x00] ++ d) := by
    rw [witnessBytes, List.flatMap_cons, varBytes, hd, show compactSize 253 = [0xfd, 0xfd, 0x00] from by decide +kernel]
    simp [compactSize]
  have hl : bs.length = 257 := by rw [← e, hw]; simp [hd]
  rw [List.append_nil] at h3 h4 h5
  have ht : (witnessBytes [d]).take 2 = [0x01, 0xfd] := by rw [hw]; rfl
  rw [ht, e]
  exact ⟨h3, by rw [h5, hl], by decide +kernel, by decide +kernel⟩

theorem Tx.done_read {t : Tx} (hr : t.status = .done) {bs : Bytes} (hc : ¬ (Fragile bs ∧ Quirk bs)) (h : (t.fromStream (.of bs)).1.status = .done) :
    ∃ d r, readTx bs = .ok d r ∧ (t.fromStream (.of bs)).1.Holds d ∧ (t.fromStream (.of bs)).2.1 + r.length = bs.length ∧ (t.fromStream (.of bs)).2.2 = .of r := by
  have h1 := Tx.feed t [] bs (Or.inl ⟨hr, rfl⟩)
  unfold Tx.Out at h1
  rw [List.nil_append] at h1
  cases e : readTx bs with
  | more =>
    rw [e] at h1
    rcases h1 with ⟨g, _⟩ | ⟨g1, g | g | ⟨_, g, _⟩⟩
    · rw [h] at g; cases g
    · rw [h] at g; cases g
    · rw [h] at g; cases g
    · exact absurd ⟨g1, g⟩ hc
  | bad => rw [e] at h1; have h' : Status.Stopped _ := h1.1; rw [h] at h'; exact absurd h' not_stopped_done
  | ok d r => rw [e] at h1; exact ⟨d, r, rfl, h1.2.1, by have := h1.2.2.1; rw [List.length_nil] at this; omega, h1.2.2.2⟩

theorem Tx.body_of_holds {t : Tx} {x : Transaction} (h : t.Holds x) : t.HoldsBody x := ⟨h.version, h.ins.imp fun _ _ h => h.body, h.outs, h.locktime⟩

/-- A transaction that has been parsed, cut or not. -/
theorem Tx.done_body {t : Tx} (hr : t.status = .done) {bs : Bytes} (h : (t.fromStream (.of bs)).1.status = .done) :
    ∃ x, (t.fromStream (.of bs)).1.HoldsBody x ∧ WireTx x ∧ x.ins.length < 256 ∧ x.outs.length < 256 ∧
      ((∃ r, readTx bs = .ok x r) ∨ (Fragile bs ∧ Quirk bs)) := by
  by_cases hc : Fragile bs ∧ Quirk bs
  · have h1 := Tx.feed t [] bs (Or.inl ⟨hr, rfl⟩)
    unfold Tx.Out at h1
    rw [List.nil_append] at h1
    cases e : readTx bs with
    | more =>
      rw [e] at h1
      rcases h1 with ⟨g, _⟩ | ⟨g1, g | g | ⟨_, _, x, g1, g2, g3, g4, g5⟩⟩
      · rw [h] at g; cases g
      · rw [h] at g; cases g
      · rw [h] at g; cases g
      · refine ⟨x, g1, ⟨?_, ?_, fun i hi => (g2 i hi).1, g3, fun i hi => ?_⟩, g4, g5, Or.inr hc⟩
        · rw [← g1.version]; exact UInt32.toNat_lt _
        · rw [← g1.locktime]; exact UInt32.toNat_lt _
        · rw [(g2 i hi).2]; simp
    | bad => rw [e] at h1; have h' : Status.Stopped _ := h1.1; rw [h] at h'; exact absurd h' not_stopped_done
    | ok d r =>
      rw [e] at h1
      obtain ⟨hw, hi, ho, -⟩ := readTx_sound e
      exact ⟨d, Tx.body_of_holds h1.2.1, hw, hi, ho, Or.inr hc⟩
  · obtain ⟨d, r, h1, h2, -, -⟩ := Tx.done_read hr hc h
    obtain ⟨hw, hi, ho, -⟩ := readTx_sound h1
    exact ⟨d, Tx.body_of_holds h2, hw, hi, ho, Or.inl ⟨r, h1⟩⟩

/-- C16 for transactions which are not cut behind `fe 03 00 00` or `ff 03 00 00` between the outputs and the end of the
witnesses. Missing: such cuts, for which it is false (`C16_tx_truncated_done`). -/
theorem C16_tx_truncated_partial (t t' : Tx) (hr : t.status = .done) (hr' : t'.status = .done) (bs : Bytes) (h : (t.fromStream (.of bs)).1.status = .done) (k : Nat)
    (hk : k < (t.fromStream (.of bs)).2.1) (hb : ¬ (Fragile bs ∧ Quirk bs)) (hc : ¬ (Fragile (bs.take k) ∧ Quirk (bs.take k))) :
    (t'.fromStream (.of (bs.take k))).1.status ≠ .done := by
  intro h'
  obtain ⟨d, r, h1, _, h2, _⟩ := Tx.done_read hr hb h
  obtain ⟨d', r', h3, _⟩ := Tx.done_read hr' hc h'
  exact truncated (fun _ _ _ c h => readTx_mono c h) h1 h2 hk d' r' h3

/-- C16 for transactions without witnesses (the byte behind the version is not 0). -/
theorem C16_tx_legacy_truncated (t t' : Tx) (hr : t.status = .done) (hr' : t'.status = .done) (bs : Bytes) (h : (t.fromStream (.of bs)).1.status = .done) (k : Nat)
    (hk : k < (t.fromStream (.of bs)).2.1) (hl : bs[4]? ≠ some 0) : (t'.fromStream (.of (bs.take k))).1.status ≠ .done := by
  refine C16_tx_truncated_partial t t' hr hr' bs h k hk (fun hf => hl (fragile_byte hf.1)) (fun hf => hl ?_)
  have := fragile_byte hf.1
  rw [List.getElem?_take] at this
  split_ifs at this
  exact this

/-- A segwit transaction whose last witness item has 0x01000003 bytes (16 MB), up to the fourth byte of the item length. -/
def quirkHead : Bytes := [1, 0, 0, 0, 0, 1, 1] ++ List.replicate 36 0 ++ [0, 0xff, 0xff, 0xff, 0xff] ++ [0] ++ [1, 0xfe, 3, 0, 0]

def quirkTx (big : Bytes) : Transaction := ⟨1, [⟨List.replicate 32 0, 0, [], 0xffffffff, [big]⟩], [], 0⟩

theorem quirk_wire (big : Bytes) (hb : big.length = 0x01000003) : segwitBytes (quirkTx big) = quirkHead ++ (1 :: (big ++ [0, 0, 0, 0])) := by
  have h1 : varBytes big = [0xfe, 3, 0, 0, 1] ++ big := by
    rw [varBytes, hb, show compactSize 0x01000003 = [0xfe, 3, 0, 0, 1] from by decide +kernel]
  unfold segwitBytes quirkTx quirkHead
  simp only [List.flatMap_cons, List.flatMap_nil, List.append_nil, witnessBytes, h1, List.length_singleton, List.length_nil, inBytes]
  rw [show leBytes 4 1 = [1, 0, 0, 0] from by decide +kernel, show leBytes 4 0 = [0, 0, 0, 0] from by decide +kernel, show compactSize 1 = [1] from by decide +kernel,
    show compactSize 0 = [0] from by decide +kernel, show leBytes 4 4294967295 = [0xff, 0xff, 0xff, 0xff] from by decide +kernel,
    show varBytes [] = [0] from by decide +kernel]
  rfl

/-- C16 is false for segwit transactions: valid ones whose first 54 bytes are reported as a complete transaction. -/
theorem C16_tx_truncated_done (big : Bytes) (hb : big.length = 0x01000003) :
    (({} : Tx).fromStream (.of (segwitBytes (quirkTx big)))).1.status = .done ∧ (({} : Tx).fromStream (.of (segwitBytes (quirkTx big)))).2.1 = 54 + (1 + 0x01000003 + 4) ∧
    (({} : Tx).fromStream (.of ((segwitBytes (quirkTx big)).take 54))).1.status = .done := by
  have hw : WireTx (quirkTx big) := by
    refine ⟨by simp [quirkTx], by simp [quirkTx], ?_, by simp [quirkTx], ?_⟩
    · simp only [quirkTx, List.forall_mem_cons]
      exact ⟨⟨by simp, by simp, by simp, by simp⟩, by simp⟩
    · simp only [quirkTx, List.forall_mem_cons]
      exact ⟨⟨by simp, by rw [hb]; decide, by simp⟩, by simp⟩
  have h := Tx.feed {} [] (segwitBytes (quirkTx big)) (Or.inl ⟨rfl, rfl⟩)
  unfold Tx.Out at h
  have hrd := readTx_segwit (quirkTx big) hw (by simp [quirkTx]) (by simp [quirkTx]) []
  rw [List.append_nil] at hrd
  rw [List.nil_append, hrd] at h
  obtain ⟨h1, _, h3, _⟩ := h
  have hq : quirkHead.length = 54 := by decide +kernel
  refine ⟨h1, ?_, ?_⟩
  · have h4 := congrArg List.length (quirk_wire big hb)
    simp only [List.length_append, List.length_cons, List.length_nil, hb, hq] at h4
    simp only [List.length_nil] at h3
    omega
  · rw [quirk_wire big hb, List.take_left' hq]
    decide +kernel

example : (List.replicate 0x01000003 (7 : UInt8)).length = 0x01000003 := List.length_replicate

/-- C16: failure is final, for every kind of object: nothing is read, nothing changes, whatever is fed. -/
theorem C16_sticky (s : PStream) :
    (∀ sc : Script, sc.status = .failed → sc.fromStream s = (sc, 0, s)) ∧ (∀ w : Witness, w.status = .failed → w.fromStream s = (w, 0, s)) ∧
    (∀ t : TxIn, t.status = .failed → t.fromStream s = (t, 0, s)) ∧ (∀ t : TxOut, t.status = .failed → t.fromStream s = (t, 0, s)) ∧
    (∀ t : Tx, t.status = .failed → t.fromStream s = (t, 0, s)) :=
  ⟨fun _ h => if_pos (Or.inl h), fun _ h => if_pos (Or.inl h), fun _ h => if_pos (Or.inl h), fun _ h => if_pos (Or.inl h), fun _ h => if_pos (Or.inl h)⟩

/-- C16: a failed script cannot be completed by any continuation of the bytes it was fed: bytes are refused only
when no continuation is acceptable. -/
theorem C16_script_failed_final (sc : Script) (hr : sc.Ready) (bs more : Bytes) (hb : bs ≠ []) (h : (sc.fromStream (.of bs)).1.status = .failed) :
    (sc.fromStream (.of (bs ++ more))).1.status ≠ .done := by
  intro hd
  have h1 := Script.feed sc [] bs (Or.inl ⟨hr, rfl, hb⟩)
  unfold Script.Outcome at h1
  rw [List.nil_append] at h1
  obtain ⟨d, r, h2, _⟩ := Script.done_read hr hd
  cases e : readVar bs with
  | more => rw [e] at h1; have := h1.1.status; rw [h] at this; cases this
  | ok d r => rw [e] at h1; have := h1.1; rw [h] at this; cases this
  | bad => rw [readVar_bad_mono more e] at h2; cases h2

/-! ### C17 -/

/-- C17 for scripts: a completed parse consumed exactly the serialization of what the object now holds. -/
theorem C17_script (sc : Script) (hr : sc.Ready) (bs : Bytes) (h : (sc.fromStream (.of bs)).1.status = .done) :
    ∃ d r, bs = varBytes d ++ r ∧ (sc.fromStream (.of bs)).1.Holds d ∧ (sc.fromStream (.of bs)).2.1 = (varBytes d).length ∧ (sc.fromStream (.of bs)).2.2 = .of r ∧
      (sc.fromStream (.of bs)).1.toStream none 0 = .ok (varBytes d) := by
  obtain ⟨d, r, h1, h2, h3, h4⟩ := Script.done_read hr h
  obtain ⟨h5, h6⟩ := codecVar.sound _ _ _ h1
  refine ⟨d, r, h5, h2, ?_, h4, Script.toStream_eq _ d h2 (by omega) none 0⟩
  have := congrArg List.length h5
  rw [List.length_append] at this
  omega

theorem C17_txin (t : TxIn) (hr : t.Ready) (bs : Bytes) (h : (t.fromStream (.of bs)).1.status = .done) :
    ∃ i r, bs = inBytes i ++ r ∧ (t.fromStream (.of bs)).1.HoldsBody i ∧ (t.fromStream (.of bs)).2.1 = (inBytes i).length ∧ (t.fromStream (.of bs)).2.2 = .of r ∧
      (t.fromStream (.of bs)).1.toStream none 0 = .ok (inBytes i) := by
  obtain ⟨d, r, h1, h2, h3, h4⟩ := fed_done (TxIn.feed t [] bs (Or.inl ⟨hr, rfl⟩)) h
  obtain ⟨h5, h6⟩ := codecIn.sound _ _ _ h1
  have := h6.1.script
  refine ⟨d, r, h5, h2, ?_, h4, TxIn.toStream_eq _ d h2 (by omega) none 0⟩
  have := congrArg List.length h5
  rw [List.length_append] at this
  omega

theorem C17_txout (t : TxOut) (hr : t.Ready) (bs : Bytes) (h : (t.fromStream (.of bs)).1.status = .done) :
    ∃ o r, bs = outBytes o ++ r ∧ (t.fromStream (.of bs)).1.Holds o ∧ (t.fromStream (.of bs)).2.1 = (outBytes o).length ∧ (t.fromStream (.of bs)).2.2 = .of r ∧
      (t.fromStream (.of bs)).1.toStream none 0 = .ok (outBytes o) := by
  obtain ⟨d, r, h1, h2, h3, h4⟩ := fed_done (TxOut.feed t [] bs (Or.inl ⟨hr, rfl⟩)) h
  obtain ⟨h5, h6⟩ := codecOut.sound _ _ _ h1
  have := h6.script
  refine ⟨d, r, h5, h2, ?_, h4, TxOut.toStream_eq _ d h2 (by omega) none 0⟩
  have := congrArg List.length h5
  rw [List.length_append] at this
  omega

/-- C17 for witnesses whose bytes do not end inside an item length of several bytes. -/
theorem C17_witness_partial (w : Witness) (hr : w.status = .done) (bs : Bytes) (hc : ¬ CutInPrefix bs) (h : (w.fromStream (.of bs)).1.status = .done) :
    ∃ items r, bs = witnessBytes items ++ r ∧ (w.fromStream (.of bs)).1.Holds items ∧ (w.fromStream (.of bs)).2.1 = (witnessBytes items).length ∧
      (w.fromStream (.of bs)).2.2 = .of r ∧ (w.fromStream (.of bs)).1.toStream none 0 = .ok (witnessBytes items) := by
  obtain ⟨d, r, h1, h2, h3, h4⟩ := Witness.done_read hr hc h
  obtain ⟨h5, h6⟩ := codecWitness.sound _ _ _ h1
  refine ⟨d, r, h5, h2, ?_, h4, Witness.toStream_eq _ d h2 (by omega) none 0⟩
  have := congrArg List.length h5
  rw [List.length_append] at this
  omega

/-- C17 for transactions with fewer than 253 inputs and outputs: the bytes consumed by a completed parse are one of the
two wire encodings of what the object now holds, and re-serializing gives them back if they had no marker or there is
a witness. Missing: larger counts; truncated segwit transactions as in `C16_tx_truncated_done`; marked transactions
without any witness (`C17_tx_marker_dropped`). -/
theorem C17_tx_partial (t : Tx) (hr : t.status = .done) (bs : Bytes) (hc : ¬ (Fragile bs ∧ Quirk bs)) (h : (t.fromStream (.of bs)).1.status = .done)
    (hi : (t.fromStream (.of bs)).1.txIns.length < 253) (ho : (t.fromStream (.of bs)).1.txOuts.length < 253) :
    ∃ x body r, bs = body ++ r ∧ (t.fromStream (.of bs)).1.Holds x ∧ (t.fromStream (.of bs)).2.1 = body.length ∧ (t.fromStream (.of bs)).2.2 = .of r ∧
      ((body = legacyBytes x ∧ ¬ hasWitness x) ∨ body = segwitBytes x) ∧
      (bs[4]? ≠ some 0 ∨ hasWitness x → (t.fromStream (.of bs)).1.toStream none 0 = .ok body) := by
  obtain ⟨x, r, h1, h2, h3, h4⟩ := Tx.done_read hr hc h
  obtain ⟨hw, _, _, body, h5, h6⟩ := readTx_sound h1
  rw [h2.ins.length_eq] at hi
  rw [h2.outs.length_eq] at ho
  have h7 := h6 hi ho
  refine ⟨x, body, r, h5, h2, ?_, h4, h7.imp (fun h => ⟨h.1, h.2.2⟩) id, ?_⟩
  · have := congrArg List.length h5
    rw [List.length_append] at this
    omega
  · intro hcase
    rw [Tx.toStream_eq _ x h2 (hw.small hi ho) none 0]
    unfold window txBytes
    rw [List.drop_zero]
    rcases h7 with ⟨g1, _, g3⟩ | g1
    · rw [if_neg g3, g1]
    · rcases hcase with hcase | hcase
      · exfalso
        apply hcase
        rw [h5, g1]
        unfold segwitBytes
        simp only [List.append_assoc]
        rw [List.getElem?_append_right (by simp)]
        simp
      · rw [if_pos hcase, g1]

/-- C17: the two encodings of a transaction without witnesses are both accepted and give equal objects; the marked one
is serialized as the other one. -/
theorem C17_tx_marker_dropped (t : Tx) (hr : t.status = .done) (x : Transaction) (hw : WireTx x) (h0 : x.ins ≠ []) (hi : x.ins.length < 253) (ho : x.outs.length < 253)
    (hx : ¬ hasWitness x) :
    (t.fromStream (.of (segwitBytes x))).1.status = .done ∧ (t.fromStream (.of (segwitBytes x))).1.Holds x ∧
    (t.fromStream (.of (legacyBytes x))).1.status = .done ∧ (t.fromStream (.of (legacyBytes x))).1.Holds x ∧
    (t.fromStream (.of (segwitBytes x))).1.toStream none 0 = .ok (legacyBytes x) ∧ segwitBytes x ≠ legacyBytes x := by
  have h1 := Tx.feed t [] (segwitBytes x ++ []) (Or.inl ⟨hr, rfl⟩)
  have h2 := Tx.feed t [] (legacyBytes x ++ []) (Or.inl ⟨hr, rfl⟩)
  unfold Tx.Out at h1 h2
  rw [List.nil_append, readTx_segwit x hw hi ho] at h1
  rw [List.nil_append, readTx_legacy x hw h0 hi ho hx] at h2
  rw [List.append_nil] at h1 h2
  refine ⟨h1.1, h1.2.1, h2.1, h2.2.1, ?_, ?_⟩
  · rw [Tx.toStream_eq _ x h1.2.1 (hw.small hi ho) none 0]
    unfold window txBytes
    rw [if_neg hx, List.drop_zero]
  · intro h
    have h3 := congrArg (fun l => (l.drop 4).head?) h
    unfold segwitBytes legacyBytes at h3
    simp only [List.append_assoc] at h3
    rw [List.drop_left' (by simp), List.drop_left' (by simp), compactSize_small hi] at h3
    have h4 : (0 : UInt8) = UInt8.ofNat x.ins.length := Option.some.inj h3
    have h5 := congrArg UInt8.toNat h4
    rw [UInt8.toNat_ofNat', Nat.mod_eq_of_lt (by omega)] at h5
    exact h0 (List.length_eq_zero_iff.mp h5.symm)

/-- C16, C17: completed parses exist. -/
example : (({} : Tx).fromStream (.of cutTx)).1.status = .done ∧ ¬ (Fragile cutTx ∧ Quirk cutTx) ∧ (({} : Tx).fromStream (.of cutTx)).1.txIns.length = 1 := by
  refine ⟨by decide +kernel, ?_, by decide +kernel⟩
  rintro ⟨_, z, b, h, hb⟩
  have := congrArg (List.drop 52) h
  have h2 := congrArg List.length h
  have hz : z.length = 52 := by
    rw [List.length_append] at h2
    have h3 : cutTx.length = 56 := by decide +kernel
    simp only [List.length_cons, List.length_nil] at h2
    omega
  rw [List.drop_left' hz] at this
  have h4 : cutTx.drop 52 = [0, 0, 0, 0] := by decide +kernel
  rw [h4] at this
  cases this

/-! ### A length in a size_t -/

/-- Script.cpp:264-315 with `size_t` arithmetic as written, for a fresh object and a stream which ends inside the
length prefix `ff a b c d`: `scriptLen` sign-extended from `int` and sums modulo 2^64. -/
def Script.fromStream64 (a b c d : UInt8) : Status × Nat :=
  let v := a.toNat + 256 * b.toNat + 65536 * c.toNat + 16777216 * d.toNat
  let scriptLen := if v < 2 ^ 31 then v else v + (2 ^ 64 - 2 ^ 32)
  let lenLen := 9
  let read := 5
  (if read = (scriptLen + lenLen) % 2 ^ 64 then .done else .incomplete, scriptLen)

/-- C16 is false for scripts when the sum of lengths wraps around: the five bytes `ff fc ff ff ff` are reported as a complete
script with a length of 2^64-4. It is the only such length. -/
theorem C16_script_wraps (a b c d : UInt8) :
    (Script.fromStream64 a b c d).1 = .done ↔ a = 0xfc ∧ b = 0xff ∧ c = 0xff ∧ d = 0xff := by
  have ha := a.toNat_lt; have hb := b.toNat_lt; have hc := c.toNat_lt; have hd := d.toNat_lt
  unfold Script.fromStream64
  simp only [← UInt8.toNat_inj]
  show _ ↔ a.toNat = 252 ∧ b.toNat = 255 ∧ c.toNat = 255 ∧ d.toNat = 255
  split_ifs with h1 h2 h2 <;> simp <;> omega

end UB
