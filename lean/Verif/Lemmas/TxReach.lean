import Verif.Lemmas.TxFeed

/-
Parsing of a segwit transaction, in one go or resumed, up to the witnesses.
-/

namespace UB
open Spec
namespace Tx

variable {pc hdr : Bytes} {n v : Nat} {q : Bytes} {is : List In} {o : UInt8} {r : Bytes} {os : List Spec.Out} {r2 : Bytes}

/-- The call `R` reads everything before the witnesses and goes on with them at the bytes `r2`; `B` bytes had been consumed before, `len` is the number
of all bytes so far. -/
def Reach (R : Tx × Nat × PStream) (B len v : Nat) (is : List In) (os : List Spec.Out) (r2 : Bytes) : Prop :=
  ∃ (t : Tx) (br : Nat), R = t.readWitnesses br (.of r2) ∧ t.status = .incomplete ∧ t.version.toNat = v ∧ t.segwitFlag = 1 ∧ t.locktime = 0 ∧
    insDone t.txIns is ∧ outsDone t.txOuts os ∧ t.bytesParsed = B ∧ br + B + r2.length = len

theorem reach_outs (h : Ctx pc hdr true n v q is o r os r2) (c' : Bytes) (hc : c' = o :: r) (t : Tx) (br : Nat) (hst : t.status = .incomplete)
    (hv : t.version.toNat = v) (hf : t.segwitFlag = 1) (hi : insDone t.txIns is) (hlock : t.locktime = 0)
    (hlen : br + t.bytesParsed + c'.length = pc.length) : Reach (t.readOuts br (.of c')) t.bytesParsed pc.length v is os r2 := by
  subst hc
  have hoff := outOffset_done h.head t (by rw [hf]; rfl) h.ins (hi.imp fun _ _ h => h.2.1)
  rw [← h.all] at hoff
  have hpos : br + t.bytesParsed = t.outOffset := by omega
  have hP := parseAll_spec TxOut.feeds (List.replicate o.toNat {}) r (fun a ha => by rw [List.eq_of_mem_replicate ha]; exact TxOut.fresh)
  rw [List.length_replicate] at hP
  have hcount : t.readOutCount br (.of (o :: r)) = ({ t with txOuts := (parseAll TxOut.fromStream (List.replicate o.toNat {}) (.of r)).1 },
      br + 1 + (parseAll TxOut.fromStream (List.replicate o.toNat {}) (.of r)).2.1, (parseAll TxOut.fromStream (List.replicate o.toNat {}) (.of r)).2.2) := by
    unfold readOutCount
    rw [if_pos ⟨rfl, hpos⟩]
    rfl
  generalize parseAll TxOut.fromStream (List.replicate o.toNat {}) (.of r) = y at hP hcount
  obtain ⟨outs, m, s⟩ := y
  dsimp only at hP hcount
  obtain ⟨hl, hP⟩ := hP
  rw [h.outs] at hP
  obtain ⟨h1, h2, rfl⟩ := hP
  rw [readOuts_eq t br _ _ _ _ hcount _ (contAll_idle _ _ fun x hx => by rw [seqDone_none _ _ h1 x hx]; exact ⟨not_stopped_done, fun _ => by simp⟩)]
  refine ⟨{ t with txOuts := outs }, br + 1 + m + 0, rfl, hst, hv, hf, hlock, hi, h1, rfl, ?_⟩
  rw [List.length_cons] at hlen
  omega

theorem reach_resume (h : Ctx pc hdr true n v q is o r os r2) (r0 c' : Bytes) (hr : r = r0 ++ c') (t : Tx) (br : Nat) (hst : t.status = .incomplete)
    (hv : t.version.toNat = v) (hf : t.segwitFlag = 1) (hi : insDone t.txIns is) (ho : outsMid t.txOuts r0) (hol : t.txOuts.length = o.toNat)
    (hlock : t.locktime = 0) (hlen : br + t.bytesParsed + c'.length = pc.length) : Reach (t.readOuts br (.of c')) t.bytesParsed pc.length v is os r2 := by
  have hoff := outOffset_done h.head t (by rw [hf]; rfl) h.ins (hi.imp fun _ _ h => h.2.1)
  rw [← h.all, List.length_cons, hr, List.length_append] at hoff
  have hcount : t.readOutCount br (.of c') = (t, br, .of c') := by
    unfold readOutCount
    rw [if_neg (by omega)]
  rw [readOuts_eq t br _ _ _ _ hcount _ rfl]
  have hC := contLoop_spec TxOut.feeds t.txOuts r0 c' ho
  unfold FedMany at hC
  rw [contLoop_length, hol, ← hr, h.outs] at hC
  obtain ⟨h1, h2, h3, h4⟩ := hC
  rw [contAll_good _ _ h1 (fun x hx => by rw [seqDone_none _ _ h2 x hx]; exact not_stopped_done), h4]
  exact ⟨{ t with txOuts := _ }, _, rfl, hst, hv, hf, hlock, hi, h2, rfl, by dsimp only; omega⟩

theorem reach_ins (h : Ctx pc hdr true n v q is o r os r2) (q0 c' : Bytes) (hq : q = q0 ++ c') (t : Tx) (br : Nat) (hst : t.status = .incomplete)
    (hv : t.version.toNat = v) (hf : t.segwitFlag = 1) (hn : t.txIns.length = n) (hi : insMid t.txIns q0) (hlock : t.locktime = 0)
    (hlen : br + t.bytesParsed + c'.length = pc.length) : Reach (t.readIns br (.of c')) t.bytesParsed pc.length v is os r2 := by
  have hC := contLoop_spec TxIn.feeds t.txIns q0 c' hi
  unfold FedMany at hC
  have hL := contLoop_length (f := TxIn.fromStream) (st := (·.status)) t.txIns (.of c')
  rw [hL, hn, ← hq, h.ins] at hC
  obtain ⟨h1, h2, h3, h4⟩ := hC
  rw [readIns_go t br _ _ _ _ (contAll_good _ _ h1 (fun x hx => by rw [seqDone_none _ _ h2 x hx]; exact not_stopped_done)), h4]
  exact reach_outs h (o :: r) rfl { t with txIns := _ } _ hst hv hf h2 hlock (by dsimp only; omega)

theorem reach_first (h : Ctx pc hdr true n v q is o r os r2) (t : Tx) (br : Nat) (hst : t.status = .incomplete)
    (hv : t.version.toNat = v) (hf : t.segwitFlag = 1) (hlock : t.locktime = 0) (hlen : br + t.bytesParsed + q.length = pc.length) :
    Reach (({ t with txIns := (parseAll TxIn.fromStream (List.replicate n {}) (.of q)).1 } : Tx).readIns
      (br + (parseAll TxIn.fromStream (List.replicate n {}) (.of q)).2.1) (parseAll TxIn.fromStream (List.replicate n {}) (.of q)).2.2) t.bytesParsed pc.length v is os r2 := by
  have hP := parseAll_spec TxIn.feeds (List.replicate n {}) q (fun a ha => by rw [List.eq_of_mem_replicate ha]; exact TxIn.fresh)
  rw [List.length_replicate] at hP
  generalize parseAll TxIn.fromStream (List.replicate n {}) (.of q) = y at hP
  obtain ⟨ins, m, s⟩ := y
  dsimp only at hP ⊢
  obtain ⟨hl, hP⟩ := hP
  rw [h.ins] at hP
  obtain ⟨h1, h2, rfl⟩ := hP
  rw [ins_idle_done _ _ _ (seqDone_none _ _ h1)]
  exact reach_outs h (o :: r) rfl { t with txIns := ins } _ hst hv hf h1 hlock (by dsimp only; omega)

/-- The bytes of the header of a segwit transaction. -/
theorem _root_.UB.Hdr.segwit (h : Hdr hdr true n v) : ∃ vb : Bytes, vb.length = 4 ∧ leValue vb = v ∧ n < 256 ∧ hdr = vb ++ [0, 1, UInt8.ofNat n] := by
  obtain ⟨vb, h1, h2, h3, ⟨h4, _⟩ | ⟨_, h4⟩⟩ := h
  · cases h4
  · exact ⟨vb, h1, h2, h3, h4⟩

theorem reach_count (h : Ctx pc hdr true n v q is o r os r2) (t : Tx) (br : Nat) (hst : t.status = .incomplete)
    (hv : t.version.toNat = v) (hf : t.segwitFlag = 1) (hlock : t.locktime = 0) (hpos : br + t.bytesParsed = 6) (R : Tx × Nat × PStream)
    (hR : R = t.readSegwitCount br (.of (UInt8.ofNat n :: q))) : Reach (R.1.readIns R.2.1 R.2.2) t.bytesParsed pc.length v is os r2 := by
  obtain ⟨vb, h1, -, h3, h4⟩ := h.head.segwit
  have en : (UInt8.ofNat n).toNat = n := by simp; omega
  have e : t.readSegwitCount br (.of (UInt8.ofNat n :: q)) = ({ t with txIns := (parseAll TxIn.fromStream (List.replicate n {}) (.of q)).1 },
        br + 1 + (parseAll TxIn.fromStream (List.replicate n {}) (.of q)).2.1, (parseAll TxIn.fromStream (List.replicate n {}) (.of q)).2.2) := by
    unfold readSegwitCount
    rw [if_pos ⟨rfl, by omega, hpos⟩, show (PStream.of (UInt8.ofNat n :: q)).readByte = (UInt8.ofNat n, .of q) from rfl]
    dsimp only
    rw [en]
  rw [hR, e]
  refine reach_first h t (br + 1) hst hv hf hlock ?_
  rw [h.all, h4]
  simp only [List.length_append, List.length_cons, List.length_nil, h1]
  omega

theorem reach_flag (h : Ctx pc hdr true n v q is o r os r2) (t : Tx) (br : Nat) (hst : t.status = .incomplete)
    (hv : t.version.toNat = v) (hf : t.segwitFlag = 1) (hlock : t.locktime = 0) (hpos : br + t.bytesParsed = 5) (F : Bool × Nat × PStream)
    (hF : F = t.readFlag br (.of (1 :: UInt8.ofNat n :: q))) :
    Reach (if F.1 then (t.readSegwitCount F.2.1 F.2.2).1.readIns (t.readSegwitCount F.2.1 F.2.2).2.1 (t.readSegwitCount F.2.1 F.2.2).2.2
      else t.finish .failed F.2.1 F.2.2) t.bytesParsed pc.length v is os r2 := by
  have e : t.readFlag br (.of (1 :: UInt8.ofNat n :: q)) = (true, br + 1, .of (UInt8.ofNat n :: q)) := by
    unfold readFlag
    rw [if_pos ⟨rfl, by omega, hpos⟩]
    rfl
  rw [e] at hF
  subst hF
  dsimp only
  rw [if_pos rfl]
  exact reach_count h t (br + 1) hst hv hf hlock (by omega) _ rfl

theorem _root_.UB.Hdr.unique {hdr' : Bytes} {sw' : Bool} {n' v' : Nat} {q' : Bytes} (h : Hdr hdr true n v) (h' : Hdr hdr' sw' n' v') (e : hdr' ++ q' = hdr ++ q) :
    hdr' = hdr ∧ sw' = true ∧ n' = n ∧ v' = v ∧ q' = q := by
  obtain ⟨vb, h1, h2, h3, h4⟩ := h.segwit
  obtain ⟨vb', h1', h2', h3', h4'⟩ := h'
  subst h4
  rcases h4' with ⟨rfl, h5, rfl⟩ | ⟨rfl, rfl⟩
  · exfalso
    simp only [List.append_assoc] at e
    obtain ⟨e1, e2⟩ := List.append_inj e (by omega)
    simp only [List.cons_append, List.nil_append, List.cons.injEq] at e2
    apply h5
    have := congrArg UInt8.toNat e2.1
    simp only [UInt8.toNat_ofNat', UInt8.toNat_ofNat] at this
    omega
  · simp only [List.append_assoc] at e
    obtain ⟨e1, e2⟩ := List.append_inj e (by omega)
    simp only [List.cons_append, List.nil_append, List.cons.injEq, true_and] at e2
    have hn : n' = n := by
      have := congrArg UInt8.toNat e2.1
      simp only [UInt8.toNat_ofNat'] at this
      omega
    exact ⟨by rw [e1, hn], rfl, hn, by rw [← h2, ← h2', e1], e2.2⟩

theorem reach_version (h : Ctx pc hdr true n v q is o r os r2) (t : Tx) (p c : Bytes) (hpc : pc = p ++ c) (hp : p.length ≤ 4) (hst : t.status = .incomplete)
    (hbp : t.bytesParsed = p.length) (hv : t.version.toNat = leValue p) (hlock : t.locktime = 0)
    (R : Tx × Nat × PStream) (hR : R = t.readVersion (.of c)) :
    Reach (if (R.1.readFlag R.2.1 R.2.2).1 then
        (R.1.readSegwitCount (R.1.readFlag R.2.1 R.2.2).2.1 (R.1.readFlag R.2.1 R.2.2).2.2).1.readIns
          (R.1.readSegwitCount (R.1.readFlag R.2.1 R.2.2).2.1 (R.1.readFlag R.2.1 R.2.2).2.2).2.1
          (R.1.readSegwitCount (R.1.readFlag R.2.1 R.2.2).2.1 (R.1.readFlag R.2.1 R.2.2).2.2).2.2
      else R.1.finish .failed (R.1.readFlag R.2.1 R.2.2).2.1 (R.1.readFlag R.2.1 R.2.2).2.2) t.bytesParsed pc.length v is os r2 := by
  obtain ⟨vb, h1, h2, h3, h4⟩ := h.head.segwit
  have hall := h.all
  rw [hpc, h4, List.append_assoc] at hall
  obtain ⟨w, e1, e2⟩ : ∃ w, vb = p ++ w ∧ c = w ++ ([0, 1, UInt8.ofNat n] ++ q) := by
    rcases List.append_eq_append_iff.1 hall with ⟨w, a, b⟩ | ⟨w, a, b⟩
    · exact ⟨w, a, b⟩
    · have hw : w = [] := by
        apply List.eq_nil_of_length_eq_zero
        have := congrArg List.length a
        rw [List.length_append] at this
        omega
      subst hw
      exact ⟨[], by simpa using a.symm, by simpa using b.symm⟩
  have hw : w.length = 4 - t.bytesParsed := by
    rw [e1, List.length_append] at h1
    omega
  have hacc := accLE_spec w p t.version hv (by omega)
  rw [← e1, h2, ← hbp] at hacc
  have hR2 : R = ({ t with version := accLE t.version t.bytesParsed w, segwitFlag := 1 }, 4 - t.bytesParsed + 1, .of (1 :: UInt8.ofNat n :: q)) := by
    rw [hR]
    unfold readVersion
    simp only [PStream.readN_of]
    rw [e2, List.take_left' hw, List.drop_left' hw, hw, if_pos ⟨rfl, by omega⟩]
    exact if_pos rfl
  subst hR2
  exact reach_flag h { t with version := accLE t.version t.bytesParsed w, segwitFlag := 1 } (4 - t.bytesParsed + 1) hst hacc rfl hlock (by dsimp only; omega) _ rfl

/-- Whatever has been read of a transaction before, a call that gets the rest of the outputs goes on with the witnesses. -/
theorem reach (t : Tx) (p c : Bytes) (h : t.Ready p) (hx : Ctx (p ++ c) hdr true n v q is o r os r2)
    (hw : ∀ ws l, readMany readWitness n r2 ≠ .ok ws l) : Reach (t.fromStream (.of c)) p.length (p ++ c).length v is os r2 := by
  rcases h with ⟨hd, rfl⟩ | h
  · rw [fromStream_eq t _ (by rw [hd]; exact not_stopped_done)]
    have hs : t.start = { t with status := .incomplete, txIns := [], txOuts := [], bytesParsed := 0, version := 0, locktime := 0, segwitFlag := 0 } := by
      unfold start; rw [if_pos hd]
    have hb0 : t.start.bytesParsed = 0 := by rw [hs]
    rw [List.length_nil, ← hb0]
    exact reach_version hx t.start [] c rfl (by simp) (by rw [hs]) (by rw [hs]; rfl) (by rw [hs]; rfl) (by rw [hs]) _ rfl
  rw [fromStream_eq t _ (by rw [h.status]; exact not_stopped_incomplete)]
  have hs : t.start = t := by
    unfold start
    rw [if_neg (by rw [h.status]; simp)]
    have := h.status
    cases t; simp_all
  obtain ⟨vb0, k1, k2, k3, k4⟩ := hx.head.segwit
  have hall := hx.all
  rw [hs, ← h.parsed]
  have hpl := h.parsed
  have hver := h.version
  have idleV : ∀ (h5 : 5 ≤ t.bytesParsed), t.readVersion (.of c) = (t, 0, .of c) := by
    intro h5
    unfold readVersion
    have : 4 - t.bytesParsed = 0 := by omega
    simp only [PStream.readN_of, this, List.take_zero, List.drop_zero, List.length_nil, accLE]
    rw [if_neg (by omega)]
  rcases h.shape with ⟨⟨hp4, hf⟩ | ⟨vb, hvb, hp, hf⟩, hi, ho, hl⟩ | ⟨hdr', sw', n', q', hh, hp, hf, hn, hb⟩
  · rw [List.take_of_length_le hp4] at hver
    exact reach_version hx t p c rfl hp4 h.status h.parsed hver hl _ rfl
  · have hvt : p.take 4 = vb := by
      rcases hp with rfl | rfl <;> rw [List.take_append_of_le_length (by omega), List.take_of_length_le (by omega)]
    rw [hvt] at hver
    rw [k4] at hall
    rcases hp with rfl | rfl
    · simp only [List.append_assoc] at hall
      obtain ⟨e1, e2⟩ := List.append_inj hall (by omega)
      simp only [List.cons_append, List.nil_append, List.cons.injEq, true_and] at e2
      rw [List.length_append, hvb, List.length_singleton] at hpl
      rw [idleV (by omega)]
      subst e2
      exact reach_flag hx t 0 h.status (by rw [hver, e1, k2]) hf hl (by omega) _ rfl
    · simp only [List.append_assoc] at hall
      obtain ⟨e1, e2⟩ := List.append_inj hall (by omega)
      simp only [List.cons_append, List.nil_append, List.cons.injEq, true_and] at e2
      rw [List.length_append, hvb] at hpl
      simp only [List.length_cons, List.length_nil] at hpl
      rw [idleV (by omega)]
      have e3 : t.readFlag 0 (.of c) = (true, 0, .of c) := by unfold readFlag; rw [if_neg (by omega)]
      simp only
      rw [e3]
      simp only [if_true]
      subst e2
      exact reach_count hx t 0 h.status (by rw [hver, e1, k2]) hf hl (by omega) _ rfl
  · have hall' : hdr' ++ (q' ++ c) = hdr ++ q := by rw [← hall, hp, List.append_assoc]
    obtain ⟨rfl, rfl, rfl, hv', hq⟩ := Hdr.unique hx.head hh hall'
    rw [hv'] at hver
    have hf1 : t.segwitFlag = 1 := by rw [hf]; rfl
    have hlen := hh.length
    rw [hp, List.length_append, hlen] at hpl
    simp only [if_true] at hpl
    rw [idleV (by omega)]
    have e1 : t.readFlag 0 (.of c) = (true, 0, .of c) := by
      unfold readFlag
      rw [if_neg (by omega)]
    have e2 : t.readSegwitCount 0 (.of c) = (t, 0, .of c) := by
      unfold readSegwitCount
      rw [if_neg (by omega)]
    simp only
    rw [e1]
    simp only [if_true]
    rw [e2]
    simp only
    have hlen2 : 0 + t.bytesParsed + c.length = (p ++ c).length := by rw [List.length_append, h.parsed]; omega
    have hins := hx.ins
    rw [← hq] at hins
    rcases hb with ⟨b1, b2, b3, b4⟩ | ⟨is', b1, b2, b3, b4⟩ | ⟨is', o', r', b1, b2, b3, b4, b5, b6, _⟩ | ⟨is', o', r', os', r2', l, b1, b2, b3, b4, b5⟩
    · exact reach_ins hx q' c hq.symm t 0 h.status hver hf1 hn b2 b4 hlen2
    · rw [ins_idle_done t 0 _ (seqDone_none _ _ b2)]
      rw [readMany_mono codecIn c b1] at hins
      injection hins with e3 e4
      subst e3
      exact reach_outs hx c e4 t 0 h.status hver hf1 b2 b4 hlen2
    · rw [ins_idle_done t 0 _ (seqDone_none _ _ b2)]
      rw [readMany_mono codecIn c b1] at hins
      injection hins with e3 e4
      subst e3
      injection e4 with e5 e6
      subst e5
      exact reach_resume hx r' c e6.symm t 0 h.status hver hf1 b2 b5 b3 b6 hlen2
    · exfalso
      rw [readMany_mono codecIn c b1] at hins
      injection hins with e3 e4
      injection e4 with e5 e6
      subst e5
      have e6 : r' ++ c = r := e6
      have houts := hx.outs
      rw [← e6, readMany_mono codecOut c b2] at houts
      injection houts with e7 e8
      rcases b3.2.2 with ⟨h1, _⟩ | ⟨_, ws, h2, h3⟩
      · cases h1
      · exact hw ws (l ++ c) (by rw [← e8]; exact readMany_mono codecWitness c h2)

end Tx
end UB
