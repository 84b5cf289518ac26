import Verif.Lemmas.ElectrumPieces

/-
Lemmas for C72: one call of `from_stream` on a piece of a document of Electrum.
-/

namespace UB
open Spec

namespace ElectrumTx

/-- Reading what is there of the magic bytes. -/
theorem readMagic_part : ∀ (m c D : Bytes), c <+: m ++ D → readMagic m (.of c) = (true, (c.take m.length).length, .of (c.drop m.length))
  | [], c, D, _ => by simp [readMagic]
  | b :: m, [], D, _ => by simp [readMagic, PStream.avail]
  | b :: m, a :: c, D, h => by
    rw [List.cons_append, List.cons_prefix_cons] at h
    obtain ⟨rfl, h⟩ := h
    rw [readMagic, if_pos (show (PStream.of (a :: c)).avail = true from rfl), show (PStream.of (a :: c)).readByte = (a, .of c) from rfl]
    dsimp only
    rw [if_pos rfl, readMagic_part m c D h]
    rfl

/-- The object while the magic bytes and the transaction before the witnesses are read. -/
structure Early (e : ElectrumTx) (p : Bytes) : Prop where
  status : e.status = .incomplete
  legacy : e.isSegwit = false
  parsed : e.bytesParsed = p.length
  tx : e.tx.Ready (p.drop 6)

theorem start_incomplete {e : ElectrumTx} (h : e.status = .incomplete) : e.start = e := by
  unfold start
  rw [if_neg (by rw [h]; decide)]
  cases e
  simp_all

theorem start_fresh {e : ElectrumTx} (h : e.status = .done) : e.start = { status := .incomplete } := by
  unfold start
  rw [if_pos h]

theorem early_fresh : Early ({ status := .incomplete } : ElectrumTx) [] := ⟨rfl, rfl, rfl, Or.inl ⟨rfl, rfl⟩⟩

theorem fromStream_start (junk : Bytes) (fuel : Nat) {e : ElectrumTx} (h : e.status = .done) (s : PStream) :
    fromStream junk fuel e s = fromStream junk fuel ({ status := .incomplete } : ElectrumTx) s := by
  unfold fromStream
  rw [if_neg (by rw [h]; decide), if_neg (by decide), start_fresh h, start_incomplete rfl]

theorem Early.notfailed {e : ElectrumTx} {p : Bytes} (h : Early e p) : e.tx.status ≠ .failed := by
  rcases h.tx with h | h
  · rw [h.1]; decide
  · rw [h.status]; decide

/-- The call up to the transaction. -/
theorem early_call (junk : Bytes) (fuel : Nat) {e : ElectrumTx} {p c D : Bytes} (h : Early e p) (hD : p ++ c <+: electrumMagic ++ D) :
    fromStream junk fuel e (.of c) = readTx junk fuel e (c.take (6 - p.length)).length (.of (c.drop (6 - p.length))) ∧
      p.drop 6 ++ c.drop (6 - p.length) = (p ++ c).drop 6 ∧ (p ++ c).drop 6 <+: D := by
  have hsplit : p.drop 6 ++ c.drop (6 - p.length) = (p ++ c).drop 6 := by rw [List.drop_append]
  obtain ⟨r, hr⟩ := hD
  have hD' : (p ++ c).drop 6 <+: D := by
    by_cases hl : (p ++ c).length ≤ 6
    · rw [List.drop_eq_nil_of_le hl]; exact List.nil_prefix
    · refine ⟨r, ?_⟩
      have := congrArg (List.drop 6) hr
      rw [List.drop_append_of_le_length (by omega)] at this
      rw [this]
      rfl
  have hc : c <+: magic.drop p.length ++ D.drop (p.length - 6) := by
    refine ⟨r, ?_⟩
    have := congrArg (List.drop p.length) hr
    rw [List.append_assoc, List.drop_left' rfl, List.drop_append] at this
    exact this
  have hml : (magic.drop p.length).length = 6 - p.length := by rw [List.length_drop]; rfl
  refine ⟨?_, hsplit, hD'⟩
  unfold fromStream
  rw [if_neg (by rw [h.status]; decide), start_incomplete h.status]
  dsimp only
  rw [h.parsed, readMagic_part _ _ _ hc, hml]
  dsimp only
  rw [if_pos rfl]

/-- A piece that ends before the outputs do. -/
theorem early_more (junk : Bytes) (fuel : Nat) {e : ElectrumTx} {p c D : Bytes} (h : Early e p) (hD : p ++ c <+: electrumMagic ++ D)
    (hm : Spec.readTx ((p ++ c).drop 6) = .more) (hf : ¬ Fragile ((p ++ c).drop 6)) :
    ∃ e', fromStream junk fuel e (.of c) = some (e', c.length, .of []) ∧ Early e' (p ++ c) := by
  obtain ⟨e1, e2, e3⟩ := early_call junk fuel h hD
  rw [e1]
  unfold readTx
  by_cases hc : c.drop (6 - p.length) = []
  · rw [hc, if_neg (by simp [PStream.avail])]
    have hcl : c.length ≤ 6 - p.length := by
      have := congrArg List.length hc
      rw [List.length_drop, List.length_nil] at this
      omega
    unfold afterTx readSegwit
    rw [if_neg h.notfailed, if_neg (by rw [h.legacy]; simp), List.take_of_length_le hcl]
    refine ⟨_, rfl, h.status, h.legacy, ?_, ?_⟩
    · show e.bytesParsed + c.length = _
      rw [h.parsed, List.length_append]
    · show e.tx.Ready _
      rw [← e2, hc, List.append_nil]
      exact h.tx
  · have hav : (PStream.of (c.drop (6 - p.length))).avail = true := by
      cases hh : c.drop (6 - p.length) with
      | nil => exact absurd hh hc
      | cons a b => rfl
    rw [if_pos ⟨h.legacy, hav, h.notfailed⟩]
    have hfeed := Tx.feed e.tx (p.drop 6) (c.drop (6 - p.length)) h.tx
    unfold Tx.Out at hfeed
    rw [e2, hm] at hfeed
    generalize e.tx.fromStream (.of (c.drop (6 - p.length))) = R at hfeed
    obtain ⟨t, n, s⟩ := R
    rcases hfeed with ⟨g1, g2, g3, rfl⟩ | ⟨g, _⟩
    · dsimp only at g1 g2 g3 ⊢
      rw [g1, if_neg (by decide), if_neg (by decide)]
      unfold afterTx readSegwit
      dsimp only
      rw [g1, if_neg (by decide), if_neg (by rw [h.legacy]; simp)]
      have hn : (c.take (6 - p.length)).length + n = c.length := by
        rw [← e2] at g3
        simp only [List.length_append, List.length_drop, List.length_take] at g3 ⊢
        omega
      rw [hn]
      refine ⟨_, rfl, h.status, h.legacy, ?_, Or.inr g2⟩
      show e.bytesParsed + c.length = _
      rw [h.parsed, List.length_append]
    · exact absurd g hf

theorem flat_len {ks : List ElectrumKey} (hk : ∀ a ∈ ks, a.Ok ∧ a.Good) {n : Nat} (hl : ks.length = n) : 102 * n = (ks.flatMap electrumWitness).length := by
  subst hl
  induction ks with
  | nil => rfl
  | cons k ks ih =>
    obtain ⟨⟨k1, k2, k3, k4, k5⟩, -⟩ := hk k (by simp)
    have hwl : (electrumWitness k).length = 102 := by simp [electrumWitness, k2, k3]
    rw [List.flatMap_cons, List.length_append, hwl, ← ih fun a ha => hk a (by simp [ha]), List.length_cons]
    omega

theorem metas_start (junk : Bytes) {T D : Bytes} {t : Nat} : ∀ (ks : List ElectrumKey) (s : Nat), (∀ k ∈ ks, k.Ok ∧ k.Good) →
    T.drop s = ks.flatMap electrumWitness ++ D → t ≤ s + 5 →
    MetasAt junk T t s (List.replicate ks.length { derivation := some (0, 0), amount := some 0 })
  | [], s, _, _, _ => trivial
  | k :: ks, s, hk, hT, ht => by
    obtain ⟨⟨k1, k2, k3, k4, k5⟩, hd, P, g1, g2, g3⟩ := hk k (by simp)
    have hwl : (electrumWitness k).length = 102 := by simp [electrumWitness, k2, k3]
    rw [List.flatMap_cons, List.append_assoc] at hT
    refine ⟨⟨⟨hd, P, g1, g2, ?_⟩, ?_, ?_, Or.inl ⟨by omega, rfl⟩⟩, metas_start junk (D := D) ks (s + 102) (fun a ha => hk a (by simp [ha])) ?_ (by omega)⟩
    · rw [← List.drop_drop, hT, electrumWitness]
      rw [← List.append_assoc (leBytes 8 k.amount), ← List.append_assoc [0xfe, 0xff, 0xff, 0xff, 0xff], List.append_assoc _ _ (ks.flatMap electrumWitness ++ D),
        List.drop_left' (by simp [k2]), List.append_assoc, List.take_left' k3, g3]
    · show some 0 = _
      rw [show min t (s + 13) - (s + 5) = 0 by omega, List.take_zero]
      rfl
    · show some (0, 0) = _
      rw [show min t (s + 102) - (s + 98) = 0 by omega, List.take_zero]
      rfl
    · rw [← List.drop_drop, hT, List.drop_left' hwl]

theorem metas_end (junk : Bytes) {T D : Bytes} {t : Nat} : ∀ (ks : List ElectrumKey) (ms : List ElectrumMeta) (s : Nat), (∀ k ∈ ks, k.Ok ∧ k.Good) →
    T.drop s = ks.flatMap electrumWitness ++ D → ms.length = ks.length → s + 102 * ks.length ≤ t → MetasAt junk T t s ms →
    List.Forall₂ (fun m k => m.Says k (some k.amount)) ms ks
  | [], [], _, _, _, _, _, _ => .nil
  | [], _ :: _, _, _, _, h, _, _ => by simp at h
  | _ :: _, [], _, _, _, h, _, _ => by simp at h
  | k :: ks, m :: ms, s, hk, hT, hl, ht, h => by
    obtain ⟨⟨k1, k2, k3, k4, k5⟩, -⟩ := hk k (by simp)
    have hwl : (electrumWitness k).length = 102 := by simp [electrumWitness, k2, k3]
    rw [List.flatMap_cons, List.append_assoc] at hT
    rw [List.length_cons] at ht
    obtain ⟨-, h2, h3, h4⟩ := h.1
    have a1 : (T.drop (s + 5)).take 8 = leBytes 8 k.amount := by
      rw [← List.drop_drop, hT, electrumWitness, List.append_assoc, List.drop_left' (by rfl), List.append_assoc, List.take_left' (by simp)]
    have a2 : (T.drop (s + 20)).take 78 = k.xpub := by
      rw [← List.drop_drop, hT, electrumWitness]
      rw [← List.append_assoc (leBytes 8 k.amount), ← List.append_assoc [0xfe, 0xff, 0xff, 0xff, 0xff], List.append_assoc _ _ (ks.flatMap electrumWitness ++ D),
        List.drop_left' (by simp [k2]), List.append_assoc, List.take_left' k3]
    have a3 : (T.drop (s + 98)).take 4 = leBytes 2 k.change ++ leBytes 2 k.index := by
      rw [← List.drop_drop, hT, electrumWitness]
      rw [← List.append_assoc k.encoding, ← List.append_assoc (leBytes 8 k.amount), ← List.append_assoc [0xfe, 0xff, 0xff, 0xff, 0xff],
        List.append_assoc _ _ (ks.flatMap electrumWitness ++ D), List.drop_left' (by simp [k2, k3]), List.take_left' (by simp)]
    refine .cons ⟨?_, ?_, ?_⟩ (metas_end junk (D := D) ks ms (s + 102) (fun a ha => hk a (by simp [ha])) ?_ (by simpa using hl) (by omega) h.2)
    · rw [h2, show min t (s + 13) - (s + 5) = 8 by omega, a1, leValue_leBytes, Option.map_some]
      rw [Nat.mod_eq_of_lt (by omega)]
    · rw [h3, show min t (s + 102) - (s + 98) = 4 by omega, a3, addDerivation_spec _ _ k4 k5]
    · intro hd P g1 g2 g3
      rcases h4 with ⟨h4, _⟩ | ⟨_, h4, _⟩ | ⟨_, h4⟩
      · omega
      · omega
      · rw [a2, g3] at h4
        exact HDPub.has_same g1 g2 h4
    · rw [← List.drop_drop, hT, List.drop_left' hwl]

theorem holds_length {t : Tx} {x : Transaction} (h : WireTx x) (hi : x.ins.length < 253) (ho : x.outs.length < 253)
    (ht : t.Holds { x.bare with locktime := 0 }) : t.length + 4 = (preBytes x).length + 6 := by
  have hsm : ∀ i ∈ x.bare.ins, i.script.length < 2 ^ 64 := by
    intro i hi
    obtain ⟨j, hj, rfl⟩ := List.mem_map.mp hi
    have := (h.ins j hj).script
    dsimp only
    omega
  have hnw : ¬ hasWitness { x.bare with locktime := 0 } := by
    rintro ⟨i, hi, hn⟩
    obtain ⟨j, hj, rfl⟩ := List.mem_map.mp hi
    exact hn rfl
  have hl : x.bare.ins.length = x.ins.length := List.length_map ..
  rw [Tx.length_eq _ _ ht (by show x.bare.ins.length < _; omega) (by show x.outs.length < _; omega) hsm (fun o ho => by have := (h.outs o ho).script; omega)
    (fun i hi => by obtain ⟨j, hj, rfl⟩ := List.mem_map.mp hi; simp), txBytes, if_neg hnw]
  unfold legacyBytes preBytes
  have hfs : x.bare.ins.flatMap inBytes = x.ins.flatMap inBytes := flatMap_strip x.ins
  rw [hfs, hl]
  show (_ ++ compactSize x.outs.length ++ x.outs.flatMap outBytes ++ _).length + 4 = _
  simp only [List.length_append, length_leBytes, List.length_cons, List.length_nil]
  omega

/-- A piece with which the witnesses are reached. -/
theorem early_reach (junk : Bytes) (fuel : Nat) {e : ElectrumTx} {x : Transaction} (h : WireTx x) (h1 : 1 ≤ x.ins.length) (h5 : x.ins.length ≤ 5)
    (ho : x.outs.length < 253) {k : ElectrumKey} {ks : List ElectrumKey} (hk : ∀ a ∈ k :: ks, a.Ok ∧ a.Good) (hl : (k :: ks).length = x.ins.length) {D p c : Bytes}
    (he : Early e p) (hp : p.length < 6 + (preBytes x).length) (hD : p ++ c <+: electrumMagic ++ (preBytes x ++ ((k :: ks).flatMap electrumWitness ++ D)))
    (hlen : 6 + (preBytes x).length ≤ (p ++ c).length) :
    ∃ e1 br t c1, fromStream junk fuel e (.of c) = readSegwit junk fuel e1 br (.of c1) ∧ e1.status = .incomplete ∧ e1.bytesParsed = p.length ∧
      SegAt junk e1 (6 + (preBytes x).length) ((k :: ks).flatMap electrumWitness ++ D) t ∧ e1.metas.length = x.ins.length ∧ e1.tx.Holds { x.bare with locktime := 0 } ∧
      c1 <+: ((k :: ks).flatMap electrumWitness ++ D).drop t ∧ p.length + br = 6 + (preBytes x).length + t ∧ br + c1.length = c.length ∧ t ≤ 5 := by
  obtain ⟨e1, e2, e3⟩ := early_call junk fuel he hD
  have hpc : preBytes x <+: (p ++ c).drop 6 := by
    refine List.prefix_of_prefix_length_le (List.prefix_append _ _) e3 ?_
    rw [List.length_drop]
    omega
  obtain ⟨W, hW⟩ := hpc
  have hWp : W <+: electrumWitness k ++ (ks.flatMap electrumWitness ++ D) := by
    obtain ⟨r, hr⟩ := e3
    rw [← hW, List.append_assoc] at hr
    refine ⟨r, ?_⟩
    rw [List.append_cancel_left hr, List.flatMap_cons, List.append_assoc]
  have hx := ctx_pre h (by omega) ho W
  rw [hW, ← e2] at hx
  obtain ⟨t, br, r1, r2, r3, r4, r5, r6, r7, r8, r9⟩ := Tx.reach e.tx (p.drop 6) (c.drop (6 - p.length)) he.tx hx (no_witnesses hWp (by omega))
  have hwo := hx.witOffset t (by rw [r4]; rfl) (r6.imp fun _ _ h => ⟨h.1, h.2.1⟩) r7
  obtain ⟨j, js, p1, p2, p3⟩ := refused_cut hWp (n := x.ins.length) (by omega) h5 t.txIns (by rw [r6.length_eq]; simp [Transaction.bare]) (by
    intro i hi
    obtain ⟨n, hn, rfl⟩ := List.getElem_of_mem hi
    have := List.forall₂_iff_get.mp r6
    exact (this.2 n hn (by rw [← this.1]; exact hn)).2.2)
  have hpu : ∀ i ∈ j :: js, i.witness.status ≠ .ub := by
    intro i hi
    obtain ⟨n, hn, rfl⟩ := List.getElem_of_mem hi
    have := List.forall₂_iff_get.mp p2
    obtain ⟨w, hw, hw'⟩ := this.2 n (by rw [this.1]; exact hn) hn
    simp only [List.get_eq_getElem] at hw
    rw [hw]
    exact hw'
  rw [readWitnesses_refused' r4 (by omega) p1 p3 hpu] at r1
  generalize hT : ({ t with txIns := j :: js, status := .failed, bytesParsed := t.bytesParsed + (br + min x.ins.length W.length) } : Tx) = T at r1
  have hTs : T.status = .failed := by rw [← hT]
  have hTi : T.txIns = j :: js := by rw [← hT]
  have hTh : (({ e with tx := T } : ElectrumTx).segwitStart.tx).Holds { x.bare with locktime := 0 } := by
    unfold segwitStart
    subst hT
    refine ⟨r3, ?_, ?_, rfl⟩
    · have := Probed.clean p2 (r6.imp fun _ _ h => h.2.1)
      simpa [Transaction.bare] using this
    · exact r7.imp fun _ _ h => h.2
  have hpl : (p ++ c).length = 6 + (preBytes x).length + W.length := by
    have := congrArg List.length hW
    rw [List.length_append, List.length_drop] at this
    omega
  have hpre : 1 ≤ (preBytes x).length := by
    unfold preBytes
    rw [List.length_append, length_leBytes]
    omega
  have hr9 : br + (p.length - 6) + W.length = p.length - 6 + (c.length - (6 - p.length)) := by
    rw [List.length_append, List.length_drop, List.length_drop] at r9
    exact r9
  have hpl2 : p.length + c.length = 6 + (preBytes x).length + W.length := by rw [← hpl, List.length_append]
  have hav : (PStream.of (c.drop (6 - p.length))).avail = true := by
    cases hh : c.drop (6 - p.length) with
    | nil =>
      have := congrArg List.length hh
      rw [List.length_drop, List.length_nil] at this
      rw [List.length_append] at hlen
      omega
    | cons a b => rfl
  have hmet : ({ e with tx := T } : ElectrumTx).segwitStart.metas = List.replicate (k :: ks).length { derivation := some (0, 0), amount := some 0 } := by
    show T.txIns.map _ = _
    rw [hTi, List.map_const', ← p2.length_eq, r6.length_eq, hl]
    simp [Transaction.bare]
  refine ⟨({ e with tx := T } : ElectrumTx).segwitStart, (c.take (6 - p.length)).length + (br + min x.ins.length W.length), min x.ins.length W.length,
    W.drop (min x.ins.length W.length), ?_, he.status, he.parsed, ⟨rfl, rfl, ?_, ?_, ?_⟩, ?_, hTh, ?_, ?_, ?_, by omega⟩
  · rw [e1]
    unfold readTx
    rw [if_pos ⟨he.legacy, hav, he.notfailed⟩, r1]
    dsimp only
    rw [hTs, if_neg (by decide), if_neg (by decide)]
    unfold afterTx
    dsimp only
    rw [if_pos hTs, hTi]
    dsimp only
    rw [if_pos p3]
  · have := holds_length h (by omega) ho hTh
    omega
  · rw [hmet]
    exact metas_start junk (D := D) (k :: ks) 0 hk rfl (by omega)
  · rw [hmet, List.length_replicate, hl, show min (min x.ins.length W.length) (102 * x.ins.length + 4) - 102 * x.ins.length = 0 by omega, List.take_zero]
    rfl
  · rw [hmet, List.length_replicate, hl]
  · rw [List.flatMap_cons, List.append_assoc]
    exact hWp.drop _
  · rw [List.length_take]
    omega
  · rw [List.length_take, List.length_drop]
    omega

/-- The object while the data behind the outputs is read. -/
structure Late (junk : Bytes) (e : ElectrumTx) (x : Transaction) (T p : Bytes) : Prop where
  status : e.status = .incomplete
  parsed : e.bytesParsed = p.length
  long : 6 + (preBytes x).length ≤ p.length
  at_ : SegAt junk e (6 + (preBytes x).length) T (p.length - (6 + (preBytes x).length))
  metas : e.metas.length = x.ins.length
  holds : e.tx.Holds { x.bare with locktime := e.tx.locktime.toNat }

/-- The object after the bytes `p` of a segwit document. -/
def Amid (junk : Bytes) (e : ElectrumTx) (x : Transaction) (T p : Bytes) : Prop := (Early e p ∧ p.length < 6 + (preBytes x).length) ∨ Late junk e x T p

/-- The object after the whole document. -/
structure Read (e : ElectrumTx) (x : Transaction) (ks : List ElectrumKey) : Prop where
  status : e.status = .done
  segwit : e.isSegwit = true
  tx : e.tx.Holds x.bare
  metas : List.Forall₂ (fun m k => m.Says k (some k.amount)) e.metas ks

theorem late_call (junk : Bytes) (fuel : Nat) {e : ElectrumTx} {x : Transaction} {T p : Bytes} (h : Late junk e x T p) (s : PStream) :
    fromStream junk fuel e s = readSegwit junk fuel e 0 s := by
  have h6 := h.long
  unfold fromStream
  rw [if_neg (by rw [h.status]; decide), start_incomplete h.status]
  dsimp only
  rw [h.parsed, List.drop_eq_nil_of_le (by rw [show magic.length = 6 from rfl]; omega)]
  show (if true = true then _ else _) = _
  rw [if_pos rfl]
  unfold readTx
  rw [if_neg (by rw [h.at_.segwit]; simp)]
  unfold afterTx
  rw [if_neg (by rw [h.at_.tx]; decide), show readMagic [] s = (true, 0, s) from by rw [readMagic]]

/-- The part of a call that reads the data behind the outputs. -/
theorem segwit_part (junk : Bytes) (fuel : Nat) {e : ElectrumTx} {x : Transaction} (h : WireTx x) {ks : List ElectrumKey} (hk : ∀ a ∈ ks, a.Ok ∧ a.Good)
    (hl : ks.length = x.ins.length) {rest c : Bytes} {br t : Nat} (hs : e.status = .incomplete)
    (ha : SegAt junk e (6 + (preBytes x).length) (ks.flatMap electrumWitness ++ (leBytes 4 x.locktime ++ rest)) t) (hm : e.metas.length = x.ins.length)
    {lk : Nat} (hh : e.tx.Holds { x.bare with locktime := lk }) (hc : c <+: (ks.flatMap electrumWitness ++ (leBytes 4 x.locktime ++ rest)).drop t)
    (hp : e.bytesParsed + br = 6 + (preBytes x).length + t) (ht : t < 102 * x.ins.length + 4) (p : Bytes) (hpl : p.length = 6 + (preBytes x).length + t + c.length) :
    (t + c.length < 102 * x.ins.length + 4 → ∃ e', readSegwit junk (fuel + 2) e br (.of c) = some (e', br + c.length, .of []) ∧
      Late junk e' x (ks.flatMap electrumWitness ++ (leBytes 4 x.locktime ++ rest)) p) ∧
    (102 * x.ins.length + 4 ≤ t + c.length → ∃ e', readSegwit junk (fuel + 2) e br (.of c) =
      some (e', br + (102 * x.ins.length + 4 - t), .of (c.drop (102 * x.ins.length + 4 - t))) ∧ Read e' x ks) := by
  obtain ⟨e', t', c', a1, a2, a3, a4, a5, a6, a7, a8, a9, a10, a11⟩ := readSegwit_at junk fuel ha hp (by omega) hc (by omega)
  rw [hm] at a3 a9 a10 a11
  constructor
  · intro hlt
    have ht' : t' = t + c.length := by
      rcases a9 with h | h
      · rw [h, List.length_nil] at a7
        omega
      · omega
    have hc' : c' = [] := List.eq_nil_of_length_eq_zero (by omega)
    refine ⟨e', by rw [a1, hc', ht', Nat.add_sub_cancel_left], ?_, ?_, by omega, ?_, a3, a5 { x.bare with locktime := lk } hh⟩
    · rw [a11, if_neg (by omega), hs]
    · rw [a4, hpl]
      omega
    · rw [show p.length - (6 + (preBytes x).length) = t' by omega]
      exact a2
  · intro hge
    have ht' : t' = 102 * x.ins.length + 4 := by
      rcases a9 with h | h
      · rw [h, List.length_nil] at a7
        omega
      · exact h
    have hc' : c' = c.drop (102 * x.ins.length + 4 - t) := by
      rw [← ht']
      have h1 : c.drop (t' - t) <+: (ks.flatMap electrumWitness ++ (leBytes 4 x.locktime ++ rest)).drop t' := by
        have := hc.drop (t' - t)
        rwa [List.drop_drop, show t + (t' - t) = t' by omega] at this
      have hle : (c.drop (t' - t)).length = c'.length := by rw [List.length_drop]; omega
      exact ((List.prefix_of_prefix_length_le h1 a6 (by omega)).eq_of_length hle).symm
    refine ⟨e', by rw [a1, hc', ht'], by rw [a11, if_pos ht'], a2.segwit, ?_, ?_⟩
    · have hlk := a2.lock
      have hT : ∀ n, n = (ks.flatMap electrumWitness).length → (ks.flatMap electrumWitness ++ (leBytes 4 x.locktime ++ rest)).drop n = leBytes 4 x.locktime ++ rest := by
        intro n hn
        exact List.drop_left' hn.symm
      rw [a3, hT _ (flat_len hk hl), ht', show min (102 * x.ins.length + 4) (102 * x.ins.length + 4) - 102 * x.ins.length = 4 by omega,
        List.take_left' (by simp), leValue_leBytes, Nat.mod_eq_of_lt (by have := h.locktime; omega)] at hlk
      have := a5 { x.bare with locktime := lk } hh
      rw [hlk] at this
      exact this
    · exact metas_end junk (D := leBytes 4 x.locktime ++ rest) (t := t') ks e'.metas 0 hk rfl (by omega) (by omega) a2.metas

theorem doc_split (x : Transaction) (ks : List ElectrumKey) (rest : Bytes) :
    electrumSegwit x ks ++ rest = electrumMagic ++ (preBytes x ++ (ks.flatMap electrumWitness ++ (leBytes 4 x.locktime ++ rest))) := by
  unfold electrumSegwit preBytes
  simp only [List.append_assoc]

theorem doc_length {x : Transaction} {ks : List ElectrumKey} (hk : ∀ a ∈ ks, a.Ok ∧ a.Good) (hl : ks.length = x.ins.length) :
    (electrumSegwit x ks).length = 6 + (preBytes x).length + (102 * x.ins.length + 4) := by
  have := congrArg List.length (doc_split x ks [])
  rw [List.append_nil] at this
  rw [this]
  simp only [List.length_append, length_leBytes, List.length_nil, ← flat_len hk hl]
  show 6 + _ = _
  omega

theorem prefix_past {M P T p c : Bytes} {b : Nat} (h : p ++ c <+: M ++ (P ++ T)) (hb : M.length + P.length ≤ p.length + b) :
    c.drop b <+: T.drop (p.length + b - (M.length + P.length)) := by
  have := (h.drop p.length).drop b
  rwa [List.drop_left' rfl, List.drop_drop, ← List.append_assoc, List.drop_append, List.drop_eq_nil_of_le (as := M ++ P) (by rw [List.length_append]; exact hb), List.nil_append,
    List.length_append] at this

/-- One call on a piece of a segwit document. -/
theorem segwit_step (junk : Bytes) (fuel : Nat) {e : ElectrumTx} {x : Transaction} (h : WireTx x) (h1 : 1 ≤ x.ins.length) (h5 : x.ins.length ≤ 5)
    (ho : x.outs.length < 253) {ks : List ElectrumKey} (hk : ∀ a ∈ ks, a.Ok ∧ a.Good)
    (hl : ks.length = x.ins.length) {rest p c : Bytes} (he : Amid junk e x (ks.flatMap electrumWitness ++ (leBytes 4 x.locktime ++ rest)) p)
    (hD : p ++ c <+: electrumSegwit x ks ++ rest) (hp : p.length < (electrumSegwit x ks).length)
    (hcut : ¬ CutInLength x (electrumSegwit x ks).length (p ++ c).length) :
    ((p ++ c).length < (electrumSegwit x ks).length → ∃ e', fromStream junk (fuel + 2) e (.of c) = some (e', c.length, .of []) ∧ e'.status = .incomplete ∧
      Amid junk e' x (ks.flatMap electrumWitness ++ (leBytes 4 x.locktime ++ rest)) (p ++ c)) ∧
    ((electrumSegwit x ks).length ≤ (p ++ c).length → ∃ e', fromStream junk (fuel + 2) e (.of c) = some (e', (electrumSegwit x ks).length - p.length,
      .of (c.drop ((electrumSegwit x ks).length - p.length))) ∧ Read e' x ks) := by
  have hdl := doc_length hk hl
  rw [doc_split] at hD
  have hpc : (p ++ c).length = p.length + c.length := List.length_append ..
  rcases he with ⟨he, hlt⟩ | he
  · by_cases hlen : 6 + (preBytes x).length ≤ (p ++ c).length
    · obtain ⟨k, ks', rfl⟩ : ∃ k ks', ks = k :: ks' := by
        cases ks with
        | nil => rw [List.length_nil] at hl; omega
        | cons k ks => exact ⟨k, ks, rfl⟩
      obtain ⟨e1, br, t, c1, a1, a2, a3, a4, a5, a6, a7, a8, a9, a10⟩ := early_reach junk (fuel + 2) h h1 h5 ho hk hl he hlt hD hlen
      obtain ⟨s1, s2⟩ := segwit_part junk fuel h hk hl a2 a4 a5 a6 a7 (by rw [a3]; exact a8) (by omega) (p ++ c) (by omega)
      rw [a1]
      constructor
      · intro hlt
        obtain ⟨e', b1, b2⟩ := s1 (by omega)
        exact ⟨e', by rw [b1, a9], b2.status, Or.inr b2⟩
      · intro hge
        obtain ⟨e', b1, b2⟩ := s2 (by omega)
        refine ⟨e', ?_, b2⟩
        have hc1 : c1 = c.drop br := by
          have h1 := prefix_past (b := br) hD (by rw [show electrumMagic.length = 6 from rfl]; omega)
          rw [show electrumMagic.length = 6 from rfl, show p.length + br - (6 + (preBytes x).length) = t by omega] at h1
          have hle : (c.drop br).length = c1.length := by rw [List.length_drop]; omega
          exact ((List.prefix_of_prefix_length_le h1 a7 (by omega)).eq_of_length hle).symm
        rw [b1, hc1, List.drop_drop]
        rw [show br + (102 * x.ins.length + 4 - t) = (electrumSegwit x (k :: ks')).length - p.length by omega]
    · refine ⟨fun _ => ?_, fun hge => by omega⟩
      have hpre : (p ++ c).drop 6 <+: preBytes x := by
        have e3 := (early_call junk (fuel + 2) he hD).2.2
        exact List.prefix_of_prefix_length_le e3 (List.prefix_append _ _) (by rw [List.length_drop]; omega)
      obtain ⟨d, hd⟩ := hpre
      have hd0 : d ≠ [] := by
        rintro rfl
        have := congrArg List.length hd
        rw [List.length_append, List.length_drop, List.length_nil] at this
        by_cases h6 : 6 ≤ (p ++ c).length
        · omega
        · have h0 : (preBytes x).length = 0 := by omega
          unfold preBytes at h0
          rw [List.length_append, length_leBytes] at h0
          omega
      have hlast : ∀ o, x.outs.getLast? = some o → o.script.length < d.length → o.script.length + (compactSize o.script.length).length ≤ d.length := by
        intro l hll hlt'
        have hpl := preBytes_last hll
        have hdlen := congrArg List.length hd
        rw [List.length_append, List.length_drop] at hdlen
        by_contra hcon
        by_cases h6 : 6 ≤ (p ++ c).length
        · exact hcut ⟨l, hll, by omega, by omega⟩
        · omega
      obtain ⟨e', b1, b2⟩ := early_more junk (fuel + 2) he hD (readTx_pre h (by omega) ho hd) (not_fragile_pre h (by omega) ho hd hd0 hlast)
      exact ⟨e', b1, b2.status, Or.inl ⟨b2, by omega⟩⟩
  · have hc : c <+: (ks.flatMap electrumWitness ++ (leBytes 4 x.locktime ++ rest)).drop (p.length - (6 + (preBytes x).length)) :=
      prefix_past (b := 0) hD he.long
    have hlong := he.long
    obtain ⟨s1, s2⟩ := segwit_part junk fuel h hk hl he.status he.at_ he.metas he.holds hc (br := 0) (by rw [he.parsed]; omega) (by omega) (p ++ c) (by omega)
    rw [late_call junk (fuel + 2) he]
    constructor
    · intro hlt
      obtain ⟨e', b1, b2⟩ := s1 (by omega)
      exact ⟨e', by rw [b1, Nat.zero_add], b2.status, Or.inr b2⟩
    · intro hge
      obtain ⟨e', b1, b2⟩ := s2 (by omega)
      refine ⟨e', ?_, b2⟩
      rw [b1, Nat.zero_add, show 102 * x.ins.length + 4 - (p.length - (6 + (preBytes x).length)) = (electrumSegwit x ks).length - p.length by omega]

/-- A segwit document in pieces. -/
theorem segwit_feed (junk : Bytes) (fuel : Nat) {x : Transaction} (h : WireTx x) (h1 : 1 ≤ x.ins.length) (h5 : x.ins.length ≤ 5)
    (ho : x.outs.length < 253) {ks : List ElectrumKey} (hk : ∀ a ∈ ks, a.Ok ∧ a.Good)
    (hl : ks.length = x.ins.length) {rest : Bytes} : ∀ (cs : List Bytes) {e : ElectrumTx} {p : Bytes},
    Amid junk e x (ks.flatMap electrumWitness ++ (leBytes 4 x.locktime ++ rest)) p →
    p ++ cs.flatten <+: electrumSegwit x ks ++ rest → p.length < (electrumSegwit x ks).length →
    (∀ k, ¬ CutInLength x (electrumSegwit x ks).length (p.length + (cs.take k).flatten.length)) →
    ((p ++ cs.flatten).length < (electrumSegwit x ks).length → cs ≠ [] → ∃ e', feedPiecesOpt (fromStream junk (fuel + 2)) ElectrumTx.status e cs = some (e', cs.flatten.length) ∧
      e'.status = .incomplete) ∧
    ((electrumSegwit x ks).length ≤ (p ++ cs.flatten).length →
      ∃ e', feedPiecesOpt (fromStream junk (fuel + 2)) ElectrumTx.status e cs = some (e', (electrumSegwit x ks).length - p.length) ∧ Read e' x ks)
  | [], e, p, he, hD, hp, _ => by
    refine ⟨fun _ h => absurd rfl h, fun hge => ?_⟩
    rw [List.flatten_nil, List.append_nil] at hge
    omega
  | c :: cs, e, p, he, hD, hp, hcut => by
    rw [List.flatten_cons, ← List.append_assoc] at hD
    obtain ⟨s1, s2⟩ := segwit_step junk fuel h h1 h5 ho hk hl he ((List.prefix_append _ _).trans hD) hp (by have := hcut 1; simpa [List.length_append] using this)
    have hpc : (p ++ c).length = p.length + c.length := List.length_append ..
    have hpf : (p ++ (c :: cs).flatten).length = p.length + c.length + cs.flatten.length := by
      rw [List.flatten_cons, List.length_append, List.length_append]; omega
    have hpf' : ((p ++ c) ++ cs.flatten).length = p.length + c.length + cs.flatten.length := by
      rw [List.length_append, hpc]
    unfold feedPiecesOpt
    by_cases hc : (p ++ c).length < (electrumSegwit x ks).length
    · obtain ⟨e1, a1, a2, a3⟩ := s1 hc
      obtain ⟨r1, r2⟩ := segwit_feed junk fuel h h1 h5 ho hk hl cs a3 hD hc (fun k => by have := hcut (k + 1); rw [List.take_succ_cons, List.flatten_cons, List.length_append] at this; rwa [hpc, Nat.add_assoc])
      rw [a1]
      dsimp only
      rw [if_pos a2]
      constructor
      · intro hlt _
        cases cs with
        | nil => exact ⟨e1, by simp [feedPiecesOpt], a2⟩
        | cons c' cs' =>
          obtain ⟨e', b1, b2⟩ := r1 (by omega) (by simp)
          exact ⟨e', by rw [b1, List.flatten_cons (l := c), List.length_append], b2⟩
      · intro hge
        obtain ⟨e', b1, b2⟩ := r2 (by omega)
        refine ⟨e', ?_, b2⟩
        rw [b1]
        dsimp only
        rw [show c.length + ((electrumSegwit x ks).length - (p ++ c).length) = (electrumSegwit x ks).length - p.length by omega]
    · obtain ⟨e1, a1, a2⟩ := s2 (by omega)
      rw [a1]
      dsimp only
      rw [if_neg (by rw [a2.status]; decide)]
      exact ⟨fun hlt => by omega, fun _ => ⟨e1, rfl, a2⟩⟩

end ElectrumTx
end UB
