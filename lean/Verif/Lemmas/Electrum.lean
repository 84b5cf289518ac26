import Verif.Model.Electrum
import Verif.Spec.Electrum
import Verif.Lemmas.TxCodec
import Verif.Props.HDText

/-
Lemmas for C72 (Electrum transactions).
-/

namespace UB
open Spec

namespace Tx

/-- The transaction while its witnesses are awaited. -/
abbrev part (ver : UInt32) (ins : List TxIn) (outs : List TxOut) : Tx :=
  { status := .incomplete, bytesParsed := 0, segwitFlag := 1, version := ver, txIns := ins, txOuts := outs, locktime := 0 }

/-- Parsing of a whole segwit transaction up to the witnesses. -/
theorem to_witnesses {vb c r r2 : Bytes} {k o : UInt8} {is : List In} {os : List Spec.Out} (hvb : vb.length = 4)
    (hins : readMany readIn k.toNat c = .ok is (o :: r)) (houts : readMany readOut o.toNat r = .ok os r2) :
    ∃ t1 : Tx, ({} : Tx).fromStream (.of (vb ++ 0 :: 1 :: k :: c)) = t1.readWitnesses (7 + c.length - r2.length) (.of r2) ∧ t1.status = .incomplete ∧
      t1.bytesParsed = 0 ∧ t1.segwitFlag = 1 ∧ t1.version.toNat = leValue vb ∧ insDone t1.txIns is ∧ outsDone t1.txOuts os ∧ t1.locktime = 0 ∧
      t1.witOffset = 7 + c.length - r2.length := by
  have hI := parseAll_spec TxIn.feeds (List.replicate k.toNat {}) c (fun a ha => by rw [List.eq_of_mem_replicate ha]; exact TxIn.fresh)
  rw [List.length_replicate] at hI
  obtain ⟨hIl, hI⟩ := hI
  rw [hins] at hI
  obtain ⟨i1, i2, i3⟩ := hI
  have hO := parseAll_spec TxOut.feeds (List.replicate o.toNat {}) r (fun a ha => by rw [List.eq_of_mem_replicate ha]; exact TxOut.fresh)
  rw [List.length_replicate] at hO
  obtain ⟨hOl, hO⟩ := hO
  rw [houts] at hO
  obtain ⟨o1, o2, o3⟩ := hO
  have hacc := accLE_spec vb [] 0 rfl (by simp [hvb])
  rw [List.nil_append, List.length_nil] at hacc
  have hver : (Tx.start {}).readVersion (.of (vb ++ 0 :: 1 :: k :: c)) = (part (accLE 0 0 vb) [] [], 5, .of (1 :: k :: c)) := by
    unfold readVersion
    rw [PStream.readN_of]
    have e1 : (vb ++ 0 :: 1 :: k :: c).take (4 - (Tx.start {}).bytesParsed) = vb := List.take_left' hvb
    have e2 : (vb ++ 0 :: 1 :: k :: c).drop (4 - (Tx.start {}).bytesParsed) = 0 :: 1 :: k :: c := List.drop_left' hvb
    rw [e1, e2]
    dsimp only
    rw [hvb]
    rfl
  rw [fromStream_eq _ _ (by intro h; rcases h with h | h <;> cases h)]
  dsimp only
  rw [hver]
  generalize accLE 0 0 vb = ver at hacc
  have hflag : (part ver [] []).readFlag 5 (.of (1 :: k :: c)) = (true, 6, .of (k :: c)) := rfl
  dsimp only
  rw [hflag]
  have hcount : (part ver [] []).readSegwitCount 6 (.of (k :: c)) =
      (part ver (parseAll TxIn.fromStream (List.replicate k.toNat {}) (.of c)).1 [], 7 + (parseAll TxIn.fromStream (List.replicate k.toNat {}) (.of c)).2.1,
       (parseAll TxIn.fromStream (List.replicate k.toNat {}) (.of c)).2.2) := rfl
  dsimp only
  rw [if_pos rfl, hcount]
  dsimp only
  generalize parseAll TxIn.fromStream (List.replicate k.toNat {}) (.of c) = y at hIl i1 i2 i3
  obtain ⟨ins, m, s⟩ := y
  dsimp only at hIl i1 i2 i3 ⊢
  subst i3
  rw [ins_idle_done _ _ _ (seqDone_none _ _ i1)]
  have hh : Hdr (vb ++ [0, 1, k]) true k.toNat (leValue vb) := ⟨vb, hvb, rfl, k.toNat_lt, Or.inr ⟨rfl, by simp⟩⟩
  have hoff : ∀ outs, (part ver ins outs).outOffset = 7 + m := by
    intro outs
    have := outOffset_done hh (part ver ins outs) rfl hins (i1.imp fun _ _ h => h.2.1)
    simp only [List.length_append, List.length_cons, List.length_nil, hvb] at this i2
    omega
  have hcount2 : (part ver ins []).readOutCount (7 + m) (.of (o :: r)) = (part ver ins (parseAll TxOut.fromStream (List.replicate o.toNat {}) (.of r)).1,
        7 + m + 1 + (parseAll TxOut.fromStream (List.replicate o.toNat {}) (.of r)).2.1, (parseAll TxOut.fromStream (List.replicate o.toNat {}) (.of r)).2.2) := by
    unfold readOutCount
    rw [if_pos ⟨rfl, (hoff []).symm⟩]
    rfl
  generalize parseAll TxOut.fromStream (List.replicate o.toNat {}) (.of r) = y at hOl o1 o2 o3 hcount2
  obtain ⟨outs, n, s⟩ := y
  dsimp only at hOl o1 o2 o3 hcount2
  subst o3
  rw [readOuts_eq _ _ _ _ _ _ hcount2 _ (contAll_idle _ _ fun x hx => by rw [seqDone_none _ _ o1 x hx]; exact ⟨not_stopped_done, fun _ => by simp⟩)]
  have hlen : 7 + m + 1 + n = 7 + c.length - r2.length := by
    simp only [List.length_cons] at i2
    omega
  have hol := outs_len houts (o1.imp fun _ _ h => h.2)
  refine ⟨part ver ins outs, ?_, rfl, rfl, rfl, hacc, i1, o1, rfl, ?_⟩
  · dsimp only [afterOuts]
    rw [Nat.add_zero, hlen]
  · unfold witOffset
    rw [← hlen, hoff]
    dsimp only
    omega

/-- A witness that starts with a byte for a large count is refused at that byte. -/
theorem parseWitness_large (i : TxIn) (b : UInt8) (s : Bytes) (hi : i.witness.status = .done) (hb : 0xfd ≤ b) :
    ∃ w : Witness, parseWitness i (.of (b :: s)) = ({ i with witness := w }, 1, .of s) ∧ w.status = .failed := by
  unfold parseWitness Witness.fromStream
  rw [hi, if_neg (by simp)]
  have h1 : i.witness.start.bytesParsed = 0 := by
    unfold Witness.start
    rw [if_pos hi]
    rfl
  have h2 : ¬ b < 0xfd := by
    rw [UInt8.lt_iff_toNat_lt]
    rw [UInt8.le_iff_toNat_le] at hb
    omega
  dsimp only
  rw [if_pos ⟨rfl, h1⟩]
  have h3 : (PStream.of (b :: s)).readByte = (b, .of s) := rfl
  rw [h3]
  dsimp only
  rw [if_neg h2]
  exact ⟨_, rfl, rfl⟩

/-- At most as many inputs as there are bytes for large counts. -/
theorem parseWitness_all_large : ∀ (ins : List TxIn) (m s : Bytes), (∀ i ∈ ins, i.witness.status = .done) → m.length = ins.length → (∀ b ∈ m, 0xfd ≤ b) →
    ∃ ins', parseAll parseWitness ins (.of (m ++ s)) = (ins', m.length, .of s) ∧ List.Forall₂ (fun i j => ∃ w : Witness, j = { i with witness := w } ∧ w.status = .failed) ins ins'
  | [], [], s, _, _, _ => ⟨[], rfl, .nil⟩
  | [], _ :: _, _, _, h, _ => by simp at h
  | _ :: _, [], _, _, h, _ => by simp at h
  | i :: ins, b :: m, s, hi, hl, hm => by
    obtain ⟨w, e1, e2⟩ := parseWitness_large i b (m ++ s) (hi i (by simp)) (hm b (by simp))
    obtain ⟨ins', e3, e4⟩ := parseWitness_all_large ins m s (fun j hj => hi j (by simp [hj])) (by simpa using hl) (fun c hc => hm c (by simp [hc]))
    refine ⟨{ i with witness := w } :: ins', ?_, .cons ⟨w, rfl, e2⟩ e4⟩
    rw [List.cons_append, parseAll_cons, e1]
    dsimp only
    rw [e3, List.length_cons, Nat.add_comm]


theorem readWitnesses_refused {t : Tx} {br n : Nat} {s s' : PStream} {i0 : TxIn} {ins' : List TxIn} (hf : t.segwitFlag = 1) (hp : t.bytesParsed = 0)
    (ho : br = t.witOffset) (h : parseAll parseWitness t.txIns s = (i0 :: ins', n, s')) (h0 : i0.witness.status = .failed)
    (hu : ∀ i ∈ i0 :: ins', i.witness.status ≠ .ub) :
    t.readWitnesses br s = ({ t with txIns := i0 :: ins', status := .failed, bytesParsed := br + n }, br + n, s') := by
  unfold readWitnesses
  rw [hf, if_pos (by decide), hp, Nat.add_zero, if_pos ho, h]
  dsimp only
  have e := contLoop_stop (f := parseWitness) (st := fun i : TxIn => i.witness.status) i0 ins' s' (i0, 0, s') (if_neg (by rw [h0]; simp)) (Or.inl h0)
  unfold contAll
  rw [e]
  dsimp only
  rw [if_neg (by simpa using hu), if_neg (by decide)]
  unfold finish
  dsimp only
  rw [Nat.add_zero, Nat.zero_add]

end Tx

/-- The inputs without their witnesses. -/
def Spec.Transaction.bare (x : Transaction) : Transaction := { x with ins := x.ins.map fun i => { i with witness := [] } }

theorem readMany_ins {x : Transaction} (h : WireTx x) (ho : x.outs.length < 253) (W : Bytes) :
    readMany readIn x.ins.length (x.ins.flatMap inBytes ++ (compactSize x.outs.length ++ W)) = .ok x.bare.ins (UInt8.ofNat x.outs.length :: W) := by
  have e1 := (codecMany codecIn x.ins.length).complete (x.ins.map fun i => { i with witness := [] }) (compactSize x.outs.length ++ W) ⟨by simp, by
        intro i hi
        obtain ⟨j, hj, rfl⟩ := List.mem_map.mp hi
        have := h.ins j hj
        exact ⟨⟨this.hash, this.index, this.script, this.sequence⟩, rfl⟩⟩
  rw [flatMap_strip] at e1
  rw [e1, compactSize_small ho]
  rfl

namespace ElectrumTx

theorem readMagic_all (d : Bytes) : readMagic magic (.of (electrumMagic ++ d)) = (true, 6, .of d) := rfl

/-- What reading a witness does to an input that is waiting for it: refused, or read. -/
def Probed (i j : TxIn) : Prop := ∃ w : Witness, j = { i with witness := w } ∧ w.status ≠ .ub

/-- Bytes in the place of the witnesses of `n` inputs with which the first pass fails at the first input and consumes `k` bytes. -/
def Refused (n k : Nat) (W : Bytes) : Prop :=
  ∀ ins : List TxIn, ins.length = n → (∀ i ∈ ins, i.witness = {}) → ∃ j js, Tx.parseAll Tx.parseWitness ins (.of W) = (j :: js, k, .of (W.drop k)) ∧
    List.Forall₂ Probed ins (j :: js) ∧ j.witness.status = .failed

theorem Probed.clean {ins js : List TxIn} (h : List.Forall₂ Probed ins js) {is : List In} (hi : List.Forall₂ TxIn.HoldsBody ins is) :
    List.Forall₂ TxIn.Holds (js.map fun i => { i with witness := i.witness.assign {} }) (is.map fun i => { i with witness := [] }) := by
  induction h generalizing is with
  | nil => cases hi; exact .nil
  | cons hp _ ih =>
    cases hi with
    | cons h1 h2 =>
      obtain ⟨w, rfl, -⟩ := hp
      exact .cons ⟨⟨h1.hash, h1.hash_len, h1.index, h1.script, h1.sequence⟩, rfl, rfl⟩ (ih h2)

/-- A segwit document up to the data of the inputs. -/
theorem fromStream_segwit (junk : Bytes) (fuel : Nat) {e : ElectrumTx} (he : e.status = .done) {x : Transaction} (h : WireTx x) (hi : x.ins.length < 253)
    (ho : x.outs.length < 253) {W : Bytes} {k : Nat} (hW : Refused x.ins.length k W) :
    ∃ e1 : ElectrumTx, ∃ off : Nat,
      fromStream junk fuel e (.of (electrumMagic ++ (leBytes 4 x.version ++ ([0x00, 0x01] ++ (compactSize x.ins.length ++ (x.ins.flatMap inBytes ++
        (compactSize x.outs.length ++ (x.outs.flatMap outBytes ++ W)))))))) = readSegwit junk fuel e1 (off + k) (.of (W.drop k)) ∧
      e1.status = .incomplete ∧ e1.bytesParsed = 0 ∧ e1.isSegwit = true ∧ e1.tx.status = .done ∧ e1.tx.locktime = 0 ∧ e1.tx.Holds { x.bare with locktime := 0 } ∧
      e1.metas = List.replicate x.ins.length { derivation := some (0, 0), amount := some 0 } ∧ 6 + e1.tx.length + 2 - 4 = off ∧
      off = 6 + 8 + (x.ins.flatMap inBytes).length + (x.outs.flatMap outBytes).length := by
  have hins := readMany_ins h ho (x.outs.flatMap outBytes ++ W)
  have houts : readMany readOut x.outs.length (x.outs.flatMap outBytes ++ W) = .ok x.outs W := (codecMany codecOut x.outs.length).complete x.outs W ⟨rfl, h.outs⟩
  have ei : (UInt8.ofNat x.ins.length).toNat = x.ins.length := by simp; omega
  have eo : (UInt8.ofNat x.outs.length).toNat = x.outs.length := by simp; omega
  obtain ⟨t1, w1, w2, w3, w4, w5, w6, w7, w8, w9⟩ := Tx.to_witnesses (vb := leBytes 4 x.version) (k := UInt8.ofNat x.ins.length) (o := UInt8.ofNat x.outs.length)
    (by simp) (by rw [ei]; exact hins) (by rw [eo]; exact houts)
  obtain ⟨j, js, p1, p2, p3⟩ := hW t1.txIns (by rw [w6.length_eq]; simp [Transaction.bare]) (by
    intro i hi
    obtain ⟨n, hn, rfl⟩ := List.getElem_of_mem hi
    have := List.forall₂_iff_get.mp w6
    exact (this.2 n hn (by rw [← this.1]; exact hn)).2.2)
  have hpu : ∀ i ∈ j :: js, i.witness.status ≠ .ub := by
    intro i hi
    obtain ⟨n, hn, rfl⟩ := List.getElem_of_mem hi
    have := List.forall₂_iff_get.mp p2
    obtain ⟨w, hw, hw'⟩ := this.2 n (by rw [this.1]; exact hn) hn
    simp only [List.get_eq_getElem] at hw
    rw [hw]
    exact hw'
  rw [Tx.readWitnesses_refused w4 w3 w9.symm p1 p3 hpu] at w1
  have hst : e.start = { status := .incomplete } := by
    unfold start
    rw [if_pos he]
  generalize hT : ({ t1 with txIns := j :: js, status := .failed, bytesParsed := 7 + (x.ins.flatMap inBytes ++ (compactSize x.outs.length ++ (x.outs.flatMap outBytes ++ W))).length -
    W.length + k } : Tx) = T at w1
  have hTs : T.status = .failed := by rw [← hT]
  have hTi : T.txIns = j :: js := by rw [← hT]
  have hTh : (({ status := .incomplete, tx := T } : ElectrumTx).segwitStart.tx).Holds { x.bare with locktime := 0 } := by
    unfold segwitStart
    subst hT
    refine ⟨?_, ?_, ?_, rfl⟩
    · dsimp only
      rw [w5, leValue_leBytes]
      exact Nat.mod_eq_of_lt h.version
    · have := Probed.clean p2 (w6.imp fun _ _ h => h.2.1)
      simpa [Transaction.bare] using this
    · exact w7.imp fun _ _ h => h.2
  have hlen : (({ status := .incomplete, tx := T } : ElectrumTx).segwitStart.tx).length = 10 + (x.ins.flatMap inBytes).length + (x.outs.flatMap outBytes).length := by
    have hsm : ∀ i ∈ x.bare.ins, i.script.length < 2 ^ 64 := by
      intro i hi
      obtain ⟨j, hj, rfl⟩ := List.mem_map.mp hi
      have := (h.ins j hj).script
      dsimp only
      omega
    have hnw : ¬ hasWitness { x.bare with locktime := 0 } := by
      rintro ⟨i, hi, hn⟩
      obtain ⟨j, hj, rfl⟩ := List.mem_map.mp hi
      exact hn rfl
    have hl : x.bare.ins.length = x.ins.length := List.length_map ..
    rw [Tx.length_eq _ _ hTh (by show x.bare.ins.length < _; omega) (by show x.outs.length < _; omega) hsm (fun o ho => by have := (h.outs o ho).script; omega)
      (fun i hi => by obtain ⟨j, hj, rfl⟩ := List.mem_map.mp hi; simp), txBytes, if_neg hnw]
    unfold legacyBytes
    have hfs : x.bare.ins.flatMap inBytes = x.ins.flatMap inBytes := flatMap_strip x.ins
    rw [hfs, hl, compactSize_small hi]
    show (_ ++ compactSize x.outs.length ++ x.outs.flatMap outBytes ++ _).length = _
    rw [compactSize_small ho]
    simp only [List.length_append, length_leBytes, List.length_cons, List.length_nil]
    omega
  have hcl : 7 + (x.ins.flatMap inBytes ++ (compactSize x.outs.length ++ (x.outs.flatMap outBytes ++ W))).length - W.length =
      8 + (x.ins.flatMap inBytes).length + (x.outs.flatMap outBytes).length := by
    rw [compactSize_small ho]
    simp only [List.length_append, List.length_cons, List.length_nil]
    omega
  refine ⟨({ status := .incomplete, tx := T } : ElectrumTx).segwitStart, 6 + 8 + (x.ins.flatMap inBytes).length + (x.outs.flatMap outBytes).length, ?_, rfl, rfl, rfl, rfl, rfl,
    hTh, ?_, by rw [hlen]; omega, rfl⟩
  · unfold fromStream
    rw [he, if_neg (by simp), hst]
    dsimp only
    rw [List.drop_zero, readMagic_all]
    dsimp only
    rw [if_pos rfl]
    unfold readTx
    have hav : (PStream.of (leBytes 4 x.version ++ ([0x00, 0x01] ++ (compactSize x.ins.length ++ (x.ins.flatMap inBytes ++
        (compactSize x.outs.length ++ (x.outs.flatMap outBytes ++ W))))))).avail = true := rfl
    rw [if_pos ⟨rfl, hav, by decide⟩]
    have hcs : compactSize x.ins.length = [UInt8.ofNat x.ins.length] := compactSize_small hi
    rw [hcs]
    dsimp only
    simp only [List.cons_append, List.nil_append] at w1 ⊢
    rw [w1, hcl]
    dsimp only
    rw [hTs, if_neg (by decide), if_neg (by decide)]
    unfold afterTx
    dsimp only
    rw [if_pos hTs, hTi]
    dsimp only
    rw [if_pos p3]
    congr 1
    omega
  · show T.txIns.map _ = _
    rw [hTi, List.map_const']
    congr 1
    rw [← p2.length_eq, w6.length_eq]
    simp [Transaction.bare]

/-! #### Data of the inputs -/

theorem addAmount_spec : ∀ (bs : Bytes) (i v : Nat), v + leValue bs * 256 ^ i < 2 ^ 64 →
    addAmount (UInt64.ofNat v) i bs = UInt64.ofNat (v + leValue bs * 256 ^ i)
  | [], i, v, _ => by simp [addAmount, leValue_nil]
  | c :: cs, i, v, h => by
    rw [leValue_cons] at h ⊢
    have e : v + (c.toNat + 256 * leValue cs) * 256 ^ i = v + c.toNat * 256 ^ i + leValue cs * 256 ^ (i + 1) := by
      rw [pow_succ]; ring
    rw [e] at h ⊢
    rw [addAmount, ← UInt64.ofNat_add]
    exact addAmount_spec cs (i + 1) _ h

theorem leBytes_two (n : Nat) : leBytes 2 n = [UInt8.ofNat (n % 256), UInt8.ofNat (n / 256 % 256)] := rfl

theorem addDerivation_spec (a b : Nat) (ha : a < 2 ^ 16) (hb : b < 2 ^ 16) :
    addDerivation (0, 0) 0 (leBytes 2 a ++ leBytes 2 b) = (UInt16.ofNat a, UInt16.ofNat b) := by
  have key : ∀ n, n < 2 ^ 16 → (0 : UInt16) + UInt16.ofNat ((UInt8.ofNat (n % 256)).toNat * 256 ^ 0) + UInt16.ofNat ((UInt8.ofNat (n / 256 % 256)).toNat * 256 ^ 1) = UInt16.ofNat n := by
    intro n hn
    have e1 : (UInt8.ofNat (n % 256)).toNat = n % 256 := by simp
    have e2 : (UInt8.ofNat (n / 256 % 256)).toNat = n / 256 := by simp; omega
    rw [e1, e2, UInt16.zero_add, ← UInt16.ofNat_add]
    congr 1
    omega
  have four : ∀ p q r s : UInt8, addDerivation (0, 0) 0 ([p, q] ++ [r, s]) = ((0 : UInt16) + UInt16.ofNat (p.toNat * 256 ^ 0) + UInt16.ofNat (q.toNat * 256 ^ 1),
      (0 : UInt16) + UInt16.ofNat (r.toNat * 256 ^ 0) + UInt16.ofNat (s.toNat * 256 ^ 1)) := by
    intro p q r s
    simp [addDerivation]
  rw [leBytes_two, leBytes_two, four, key a ha, key b hb]

/-- A valid extended key is read at once. -/
theorem hd_read (junk : Bytes) {hd : HDPub} {P : Pt} (h : hd.Holds P) (hn : hd.head.network ∈ networks) (rest : Bytes) :
    ∃ r : HDPub, ({} : HDPub).fromStream junk (.of (hd.whole P ++ rest)) = (r, 78, .of rest) ∧ r.Holds P ∧ r.head.Same hd.head := by
  obtain ⟨g, q, q1, q2, q3, q4⟩ := HDPub.from_all junk {} (hd.whole P) rest rfl (by decide) rfl ⟨by decide, by decide, by decide⟩ (HDPub.whole_length h hn)
    (HDPub.whole_take hn)
  have hh : HDPub.Has junk (({} : HDPub).fromStream junk (.of (hd.whole P ++ rest))).1 (hd.whole P) :=
    ⟨_, q, g, 78, 0, _, _, rfl, q1, q2, q3, by rw [q4]⟩
  obtain ⟨r1, r2⟩ := HDPub.has_same h hn hh
  refine ⟨(({} : HDPub).fromStream junk (.of (hd.whole P ++ rest))).1, ?_, r1, r2⟩
  have hd45 : (hd.whole P).drop 45 = secOf true P := by rw [HDPub.whole_eq, List.drop_left' (HDPub.head_len h hn)]
  have : (({} : HDPub).fromStream junk (.of (hd.whole P ++ rest))) = (({} : HDPub).fromStream junk { bytes := hd.whole P ++ rest }) := rfl
  rw [this, q4]
  unfold HDPub.last
  rw [HDPub.finish_point (p := { ({} : ECPoint) with point := q, status := .incomplete, bytesParsed := 0 }) junk h.ne q2 rfl (by rw [q3, hd45])]

/-- The metadata says what the document says. -/
structure _root_.UB.ElectrumMeta.Says (m : ElectrumMeta) (k : ElectrumKey) (amount : Option Nat) : Prop where
  amount : m.amount = amount.map UInt64.ofNat
  derivation : m.derivation = some (UInt16.ofNat k.change, UInt16.ofNat k.index)
  key : ∀ (hd : HDPub) (P : Pt), hd.Holds P → hd.head.network ∈ networks → k.xpub = hd.whole P → m.hd.Holds P ∧ m.hd.head.Same hd.head

/-- The extended key of a document. -/
def _root_.UB.Spec.ElectrumKey.Good (k : ElectrumKey) : Prop := ∃ (hd : HDPub) (P : Pt), hd.Holds P ∧ hd.head.network ∈ networks ∧ k.xpub = hd.whole P

theorem readHd_good (junk : Bytes) {k : ElectrumKey} (hg : k.Good) (limit fuel pos : Nat) (hp : pos < limit) (hl : limit ≤ pos + 78) (rest : Bytes) :
    ∃ r : HDPub, readHd junk limit (fuel + 2) {} pos (.of (k.xpub ++ rest)) = some (r, pos + 78, .of rest) ∧
      (∃ P, r.Holds P) ∧ (∀ (hd : HDPub) (P : Pt), hd.Holds P → hd.head.network ∈ networks → k.xpub = hd.whole P → r.Holds P ∧ r.head.Same hd.head) := by
  obtain ⟨hd, P, h1, h2, h3⟩ := hg
  obtain ⟨r, r1, r2, r3⟩ := hd_read junk h1 h2 rest
  refine ⟨r, ?_, ⟨P, r2⟩, ?_⟩
  · have hav : (PStream.of (k.xpub ++ rest)).avail = true := by
      have hl := HDPub.whole_length h1 h2
      rw [h3]
      cases hw : hd.whole P with
      | nil => rw [hw] at hl; cases hl
      | cons a b => rfl
    rw [readHd, if_pos ⟨hav, hp, by decide⟩, h3, r1]
    dsimp only
    rw [readHd, if_neg (by omega)]
  · intro hd' P' h1' h2' h3'
    obtain ⟨r', r1', r2', r3'⟩ := hd_read junk h1' h2' rest
    rw [← h3, h3', r1'] at r1
    cases r1
    exact ⟨r2', r3'⟩

theorem leValue_drop : ∀ (l a n : Nat), a < 256 ^ l → leValue ((leBytes l a).drop n) = a / 256 ^ n
  | l, a, 0, h => by rw [List.drop_zero, leValue_leBytes, Nat.mod_eq_of_lt h]; simp
  | 0, a, n + 1, h => by
    rw [show a = 0 by simpa using h, Nat.zero_div]
    rfl
  | l + 1, a, n + 1, h => by
    rw [leBytes, List.drop_succ_cons, leValue_drop l _ n (by rw [pow_succ] at h; omega), Nat.div_div_eq_div_mul, pow_succ, Nat.mul_comm]

/-- The pieces of the data that are left after `j` bytes. -/
theorem witness_drop {k : ElectrumKey} {j : Nat} (hj : j ≤ 13) (rest : Bytes) :
    (electrumWitness k).drop j ++ rest = [0xfe, 0xff, 0xff, 0xff, 0xff].drop j ++ ((leBytes 8 k.amount).drop (j - 5) ++ (k.encoding ++ (k.xpub ++
      ((leBytes 2 k.change ++ leBytes 2 k.index) ++ rest)))) := by
  unfold electrumWitness
  rw [List.drop_append, List.drop_append, List.length_cons, List.length_cons, List.length_cons, List.length_cons, List.length_cons, List.length_nil,
    show j - (0 + 1 + 1 + 1 + 1 + 1) = j - 5 from rfl, length_leBytes, show j - 5 - 8 = 0 by omega, List.drop_zero]
  simp only [List.append_assoc]

/-- Reading the data of an input of which `j` bytes are gone already. -/
theorem readMeta_eq (junk : Bytes) {k : ElectrumKey} (hk : k.Ok) (hg : k.Good) (fuel start j : Nat) (hj : j ≤ 13) (rest : Bytes) :
    ∃ m : ElectrumMeta, readMeta junk (fuel + 2) start { derivation := some (0, 0), amount := some 0 } (start + j) (.of ((electrumWitness k).drop j ++ rest)) =
      some (m, start + 102, .of rest) ∧ m.Says k (some (k.amount / 256 ^ (j - 5) * 256 ^ (j - 5))) ∧ ∃ P, m.hd.Holds P := by
  obtain ⟨r, r1, r2, r3⟩ := readHd_good junk hg (start + 98) fuel (start + 20) (by omega) (by omega) ((leBytes 2 k.change ++ leBytes 2 k.index) ++ rest)
  have take_all : ∀ (a b : Bytes) (n : Nat), a.length = n → (PStream.of (a ++ b)).readN n = (a, .of b) := by
    intro a b n h
    rw [PStream.readN_of, List.take_left' h, List.drop_left' h]
  have l1 : ([0xfe, 0xff, 0xff, 0xff, 0xff].drop j : Bytes).length = 5 - j := by simp
  have l2 : ((leBytes 8 k.amount).drop (j - 5)).length = 8 - (j - 5) := by simp
  unfold readMeta
  rw [witness_drop hj, take_all _ _ (start + 5 - (start + j)) (by rw [l1]; omega)]
  dsimp only
  rw [l1, take_all _ _ (start + 13 - (start + j + (5 - j))) (by rw [l2]; omega)]
  dsimp only
  rw [l2, take_all _ _ (start + 20 - (start + j + (5 - j) + (8 - (j - 5)))) (by rw [hk.encoding]; omega)]
  dsimp only
  rw [hk.encoding, show start + j + (5 - j) + (8 - (j - 5)) + 7 = start + 20 by omega, r1]
  simp only [Option.bind_eq_bind, Option.bind_some]
  rw [take_all _ _ (start + 102 - (start + 20 + 78)) (by simp)]
  refine ⟨_, rfl, ⟨?_, ?_, r3⟩, r2⟩
  · have ha := hk.amount
    have := addAmount_spec ((leBytes 8 k.amount).drop (j - 5)) (j - 5) 0 (by
      rw [leValue_drop _ _ _ (by omega)]
      have := Nat.div_mul_le_self k.amount (256 ^ (j - 5))
      omega)
    rw [leValue_drop _ _ _ (by omega), Nat.zero_add] at this
    show some (addAmount 0 (start + j + (5 - j) - (start + 5)) _) = _
    rw [show start + j + (5 - j) - (start + 5) = j - 5 by omega, Option.map_some, ← this]
    rfl
  · show some (addDerivation (0, 0) (start + 20 + 78 - (start + 98)) _) = _
    rw [show start + 20 + 78 - (start + 98) = 0 by omega, addDerivation_spec _ _ hk.change hk.index]


/-- The data of all inputs, `j` bytes of the first being gone. -/
theorem readMetas_eq (junk : Bytes) (fuel : Nat) : ∀ (ks : List ElectrumKey) (start j : Nat) (rest : Bytes), (∀ k ∈ ks, k.Ok ∧ k.Good) → j ≤ 13 → (ks = [] → j = 0) →
    ∃ ms : List ElectrumMeta, readMetas junk (fuel + 2) start (List.replicate ks.length { derivation := some (0, 0), amount := some 0 }) (start + j)
        (.of ((ks.flatMap electrumWitness).drop j ++ rest)) = some (ms, start + 102 * ks.length, .of rest) ∧
      List.Forall₂ (fun m k => m.Says k (some k.amount)) (ms.drop 1) (ks.drop 1) ∧ List.Forall₂ (fun m k => m.Says k (some (k.amount / 256 ^ (j - 5) * 256 ^ (j - 5)))) (ms.take 1) (ks.take 1) ∧
      ∀ m ∈ ms, ∃ P, m.hd.Holds P
  | [], start, j, rest, _, _, h0 => by
    rw [h0 rfl]
    exact ⟨[], rfl, .nil, .nil, by simp⟩
  | k :: ks, start, j, rest, hk, hj, _ => by
    obtain ⟨m, m1, m2, m3⟩ := readMeta_eq junk (hk k (by simp)).1 (hk k (by simp)).2 fuel start j hj (ks.flatMap electrumWitness ++ rest)
    obtain ⟨ms, n1, n2, n3, n4⟩ := readMetas_eq junk fuel ks (start + 102) 0 rest (fun a ha => hk a (by simp [ha])) (by omega) (fun _ => rfl)
    have hw : (electrumWitness k).length = 102 := by
      have := (hk k (by simp)).1
      simp [electrumWitness, this.encoding, this.xpub]
    refine ⟨m :: ms, ?_, ?_, .cons m2 .nil, ?_⟩
    · rw [List.length_cons, List.replicate_succ, readMetas, List.flatMap_cons, List.drop_append_of_le_length (by omega), List.append_assoc, m1]
      simp only [Option.bind_eq_bind, Option.bind_some]
      rw [List.drop_zero, Nat.add_zero] at n1
      rw [n1]
      simp only [Option.bind_some, Option.pure_def]
      rw [show start + 102 + 102 * ks.length = start + 102 * (ks.length + 1) by omega]
    · simp only [List.drop_succ_cons, List.drop_zero]
      cases ms with
      | nil => cases ks with
        | nil => exact .nil
        | cons => simp at n3
      | cons m' ms => cases ks with
        | nil => simp at n3
        | cons k' ks =>
          simp only [List.drop_succ_cons, List.drop_zero, List.take_succ_cons, List.take_zero, List.forall₂_cons] at n2 n3
          exact .cons (by simpa using n3.1) n2
    · intro m' hm'
      rcases List.mem_cons.mp hm' with rfl | h
      · exact m3
      · exact n4 m' h

/-- A segwit document. -/
theorem fromStream_doc (junk : Bytes) (fuel : Nat) {e : ElectrumTx} (he : e.status = .done) {x : Transaction} (h : WireTx x) (hi : x.ins.length < 253)
    (ho : x.outs.length < 253) {ks : List ElectrumKey} (hk : ∀ k ∈ ks, k.Ok ∧ k.Good) (hl : ks.length = x.ins.length) {j : Nat} (hj : j ≤ 13)
    (rest : Bytes) (hW : Refused x.ins.length j (ks.flatMap electrumWitness ++ (leBytes 4 x.locktime ++ rest))) (h0 : ks = [] → j = 0) :
    ∃ e' : ElectrumTx, fromStream junk (fuel + 2) e (.of (electrumSegwit x ks ++ rest)) = some (e', (electrumSegwit x ks).length, .of rest) ∧ e'.status = .done ∧
      e'.isSegwit = true ∧ e'.tx.Holds x.bare ∧ List.Forall₂ (fun m k => m.Says k (some k.amount)) (e'.metas.drop 1) (ks.drop 1) ∧
      List.Forall₂ (fun m k => m.Says k (some (k.amount / 256 ^ (j - 5) * 256 ^ (j - 5)))) (e'.metas.take 1) (ks.take 1) := by
  obtain ⟨e1, off, f1, f2, f3, f4, f5, f6, f7, f8, f9, f10⟩ := fromStream_segwit junk (fuel + 2) he h hi ho hW
  have hdoc : electrumSegwit x ks ++ rest = electrumMagic ++ (leBytes 4 x.version ++ ([0x00, 0x01] ++ (compactSize x.ins.length ++ (x.ins.flatMap inBytes ++
        (compactSize x.outs.length ++ (x.outs.flatMap outBytes ++ (ks.flatMap electrumWitness ++ (leBytes 4 x.locktime ++ rest)))))))) := by
    unfold electrumSegwit
    simp only [List.append_assoc]
  have hfl : (ks.flatMap electrumWitness).length = 102 * ks.length := by
    clear hW h0 hl f1 hdoc
    induction ks with
    | nil => rfl
    | cons k ks ih =>
      have := (hk k (by simp)).1
      rw [List.flatMap_cons, List.length_append, ih (fun a ha => hk a (by simp [ha])) , List.length_cons]
      simp [electrumWitness, this.encoding, this.xpub]
      omega
  have hlen : (electrumSegwit x ks).length = off + 102 * ks.length + 4 := by
    rw [f10]
    unfold electrumSegwit
    rw [compactSize_small hi, compactSize_small ho]
    simp only [List.length_append, length_leBytes, List.length_cons, List.length_nil, hfl, electrumMagic]
    omega
  have hdrop : (ks.flatMap electrumWitness ++ (leBytes 4 x.locktime ++ rest)).drop j = (ks.flatMap electrumWitness).drop j ++ (leBytes 4 x.locktime ++ rest) := by
    apply List.drop_append_of_le_length
    rw [hfl]
    cases ks with
    | nil => simp [h0 rfl]
    | cons => simp only [List.length_cons]; omega
  obtain ⟨ms, m1, m2, m3, m4⟩ := readMetas_eq junk fuel ks off j (leBytes 4 x.locktime ++ rest) hk hj h0
  rw [hdoc, f1, hdrop]
  unfold readSegwit
  rw [if_pos ⟨f4, f5⟩]
  dsimp only
  rw [f9, f8, ← hl, f3, Nat.zero_add, m1]
  simp only [Option.bind_eq_bind, Option.bind_some, List.length_replicate]
  have hlk : (PStream.of (leBytes 4 x.locktime ++ rest)).readN (off + 102 * ks.length + 4 - (off + 102 * ks.length)) = (leBytes 4 x.locktime, .of rest) := by
    rw [PStream.readN_of, List.take_left' (by simp), List.drop_left' (by simp)]
  rw [hlk]
  dsimp only
  rw [length_leBytes, if_neg ?_, if_pos rfl]
  · rw [hlen]
    unfold stop
    dsimp only
    rw [Nat.sub_zero, Option.pure_def]
    refine ⟨_, rfl, rfl, f4, ⟨f7.version, f7.ins, f7.outs, ?_⟩, m2, m3⟩
    have := accLE_spec (leBytes 4 x.locktime) [] 0 rfl (by simp)
    rw [List.length_nil, List.nil_append, leValue_leBytes, Nat.mod_eq_of_lt (show x.locktime < 256 ^ 4 from h.locktime)] at this
    dsimp only
    rw [f6, Nat.sub_self]
    exact this
  · intro hu
    obtain ⟨m, hm, hs⟩ := List.any_eq_true.mp hu
    obtain ⟨P, hP⟩ := m4 m hm
    rw [hP.status] at hs
    simp at hs

/-! #### The first pass over the witnesses -/

theorem refused_marker {n : Nat} (h0 : 0 < n) {m : Bytes} (hm : m.length = n) (hl : ∀ b ∈ m, 0xfd ≤ b) (W : Bytes) : Refused n n (m ++ W) := by
  intro ins hi hw
  obtain ⟨js, p1, p2⟩ := Tx.parseWitness_all_large ins m W (fun i h => by rw [hw i h]) (by omega) hl
  cases js with
  | nil => 
    have := p2.length_eq
    simp at this
    subst this
    simp at hi
    omega
  | cons j js =>
    refine ⟨j, js, by rw [p1, hm, List.drop_left' hm], p2.imp ?_, ?_⟩
    · rintro a b ⟨w, h1, h2⟩
      exact ⟨w, h1, by rw [h2]; decide⟩
    · cases p2 with
      | cons h _ => obtain ⟨w, rfl, h2⟩ := h; exact h2

/-- Up to five inputs: the pass consumes bytes of the marker only. -/
theorem refused_five (k : ElectrumKey) (W : Bytes) {n : Nat} (h0 : 0 < n) (h5 : n ≤ 5) : Refused n n (electrumWitness k ++ W) := by
  have h := refused_marker (n := n) h0 (m := [0xfe, 0xff, 0xff, 0xff, 0xff].take n) (by simp; omega)
    (fun b hb => (by decide : ∀ b ∈ ([0xfe, 0xff, 0xff, 0xff, 0xff] : Bytes), (0xfd : UInt8) ≤ b) b (List.mem_of_mem_take hb))
    (([0xfe, 0xff, 0xff, 0xff, 0xff] : Bytes).drop n ++ (leBytes 8 k.amount ++ (k.encoding ++ (k.xpub ++ (leBytes 2 k.change ++ leBytes 2 k.index))) ++ W))
  rw [← List.append_assoc, List.take_append_drop] at h
  unfold electrumWitness
  rw [List.append_assoc]
  exact h

theorem parseAll_append {α : Type} (f : α → PStream → α × Nat × PStream) : ∀ (xs ys : List α) (s : PStream), Tx.parseAll f (xs ++ ys) s =
    ((Tx.parseAll f xs s).1 ++ (Tx.parseAll f ys (Tx.parseAll f xs s).2.2).1, (Tx.parseAll f xs s).2.1 + (Tx.parseAll f ys (Tx.parseAll f xs s).2.2).2.1,
      (Tx.parseAll f ys (Tx.parseAll f xs s).2.2).2.2)
  | [], ys, s => by simp [Tx.parseAll]
  | x :: xs, ys, s => by
    rw [List.cons_append, Tx.parseAll, Tx.parseAll]
    dsimp only
    rw [parseAll_append f xs ys]
    simp [Nat.add_assoc]

/-- A witness with one empty element. -/
theorem parse_one_empty (W : Bytes) : ∃ w : Witness, ({} : Witness).fromStream (.of (1 :: 0 :: W)) = (w, 2, .of W) ∧ w.status = .done := by
  exact ⟨_, rfl, rfl⟩

/-- Six inputs: the sixth witness takes bytes of the amount. -/
theorem refused_six (k : ElectrumKey) (hk : k.amount % 65536 = 1) (W : Bytes) : Refused 6 7 (electrumWitness k ++ W) := by
  intro ins hi hw
  have hsplit : ins = ins.take 5 ++ ins.drop 5 := (List.take_append_drop 5 ins).symm
  obtain ⟨i5, hi5⟩ : ∃ i5, ins.drop 5 = [i5] := by
    rw [← List.length_eq_one_iff, List.length_drop, hi]
  have hb : leBytes 8 k.amount = 1 :: 0 :: leBytes 6 (k.amount / 256 / 256) := by
    rw [leBytes, leBytes]
    congr 1
    · rw [show k.amount % 256 = 1 by omega]; rfl
    · congr 1
      rw [show k.amount / 256 % 256 = 0 by omega]; rfl
  have he : electrumWitness k ++ W = [0xfe, 0xff, 0xff, 0xff, 0xff] ++ (1 :: 0 :: (leBytes 6 (k.amount / 256 / 256) ++ (k.encoding ++ (k.xpub ++
      (leBytes 2 k.change ++ leBytes 2 k.index))) ++ W)) := by
    unfold electrumWitness
    rw [hb]
    simp only [List.append_assoc, List.cons_append]
  obtain ⟨js, p1, p2⟩ := Tx.parseWitness_all_large (ins.take 5) [0xfe, 0xff, 0xff, 0xff, 0xff] (1 :: 0 :: (leBytes 6 (k.amount / 256 / 256) ++ (k.encoding ++ (k.xpub ++
      (leBytes 2 k.change ++ leBytes 2 k.index))) ++ W)) (fun i h => by rw [hw i (List.mem_of_mem_take h)]) (by simp; omega) (by decide)
  obtain ⟨w, w1, w2⟩ := parse_one_empty (leBytes 6 (k.amount / 256 / 256) ++ (k.encoding ++ (k.xpub ++ (leBytes 2 k.change ++ leBytes 2 k.index))) ++ W)
  have hi5w : i5.witness = {} := hw i5 (List.mem_of_mem_drop (by rw [hi5]; simp))
  have hlast : Tx.parseAll Tx.parseWitness [i5] (.of (1 :: 0 :: (leBytes 6 (k.amount / 256 / 256) ++ (k.encoding ++ (k.xpub ++
      (leBytes 2 k.change ++ leBytes 2 k.index))) ++ W))) = ([{ i5 with witness := w }], 2, .of (leBytes 6 (k.amount / 256 / 256) ++ (k.encoding ++ (k.xpub ++
      (leBytes 2 k.change ++ leBytes 2 k.index))) ++ W)) := by
    unfold Tx.parseAll Tx.parseWitness
    rw [hi5w, w1]
    rfl
  rw [hsplit, hi5, parseAll_append, he, p1, hlast]
  cases js with
  | nil =>
    have := p2.length_eq
    rw [List.length_take, hi] at this
    cases this
  | cons j js =>
    refine ⟨j, js ++ [{ i5 with witness := w }], rfl, ?_, ?_⟩
    · rw [← List.cons_append]
      refine List.rel_append (p2.imp ?_) (.cons ⟨w, rfl, by rw [w2]; decide⟩ .nil)
      rintro a b ⟨w, h1, h2⟩
      exact ⟨w, h1, by rw [h2]; decide⟩
    · obtain ⟨a, l, ⟨w, rfl, h2⟩, -, -⟩ := List.forall₂_cons_right_iff.mp p2
      exact h2

end ElectrumTx
end UB
