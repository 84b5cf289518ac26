import Verif.Lemmas.TxParse

/-
Resumable parsing of transactions.
-/

namespace UB
open Spec

/-- Version, (marker, flag,) input count. -/
def Hdr (hdr : Bytes) (sw : Bool) (n v : Nat) : Prop :=
  ∃ vb : Bytes, vb.length = 4 ∧ leValue vb = v ∧ n < 256 ∧
    ((sw = false ∧ n ≠ 0 ∧ hdr = vb ++ [UInt8.ofNat n]) ∨ (sw = true ∧ hdr = vb ++ [0, 1, UInt8.ofNat n]))

theorem Hdr.length {hdr : Bytes} {sw : Bool} {n v : Nat} (h : Hdr hdr sw n v) : hdr.length = 5 + 2 * (if sw then 1 else 0) := by
  obtain ⟨vb, h1, _, _, ⟨rfl, _, rfl⟩ | ⟨rfl, rfl⟩⟩ := h <;> simp [h1]

theorem Hdr.readTx {hdr : Bytes} {sw : Bool} {n v : Nat} (h : Hdr hdr sw n v) (q : Bytes) : readTx (hdr ++ q) = readAfterCount sw v n q := by
  obtain ⟨vb, h1, h2, h3, ⟨rfl, h4, rfl⟩ | ⟨rfl, rfl⟩⟩ := h
  · have e1 : (vb ++ [UInt8.ofNat n] ++ q).drop 4 = UInt8.ofNat n :: q := by
      rw [List.append_assoc, List.drop_append_of_le_length (by omega), List.drop_of_length_le (by omega)]; rfl
    have e2 : (vb ++ [UInt8.ofNat n] ++ q).take 4 = vb := by
      rw [List.append_assoc, List.take_append_of_le_length (by omega), List.take_of_length_le (by omega)]
    have e3 : (UInt8.ofNat n).toNat = n := by simp; omega
    have e4 : UInt8.ofNat n ≠ 0 := by intro h; rw [h] at e3; simp at e3; omega
    unfold Spec.readTx
    rw [if_neg (by simp; omega), e1, e2]
    simp only
    rw [if_pos e4, e3, h2]
  · have e1 : (vb ++ [0, 1, UInt8.ofNat n] ++ q).drop 4 = 0 :: 1 :: UInt8.ofNat n :: q := by
      rw [List.append_assoc, List.drop_append_of_le_length (by omega), List.drop_of_length_le (by omega)]; rfl
    have e2 : (vb ++ [0, 1, UInt8.ofNat n] ++ q).take 4 = vb := by
      rw [List.append_assoc, List.take_append_of_le_length (by omega), List.take_of_length_le (by omega)]
    have e3 : (UInt8.ofNat n).toNat = n := by simp; omega
    unfold Spec.readTx
    rw [if_neg (by simp; omega), e1, e2]
    simp only
    rw [if_neg (by simp), if_neg (by simp), e3, h2]

/-- Positions at which the bytes of a segwit transaction may not be cut: inside the length prefix of the last
output script, and between the end of the outputs and the end of the last witness. -/
def Fragile (pc : Bytes) : Prop :=
  ∃ hdr n v q is o r, Hdr hdr true n v ∧ pc = hdr ++ q ∧ readMany readIn n q = .ok is (o :: r) ∧
    ((readMany readOut o.toNat r = .more ∧ LastOutCut o.toNat r) ∨
     (∃ os r2, readMany readOut o.toNat r = .ok os r2 ∧ readMany readWitness n r2 = .more))

/-- The one way in which a truncated transaction is taken for complete. -/
def Quirk (pc : Bytes) : Prop := ∃ z b, pc = z ++ [b, 3, 0, 0] ∧ (b = 0xfe ∨ b = 0xff)

theorem phantom_four (q : Bytes) (h : Witness.Phantom q) (h4 : q.length = 4) : ∃ b, q = [b, 3, 0, 0] ∧ (b = 0xfe ∨ b = 0xff) := by
  obtain ⟨b, r, rfl, h1, h2, h3⟩ := h
  have hr : r.length = 3 := by simpa using h4
  have hlt := leValue_lt r
  rw [hr] at hlt
  rw [h4, lenVarIntN_eq _ (by omega)] at h3
  have hc := compactSize_length (leValue r)
  have hv : leValue r = 3 := by
    by_cases h253 : leValue r < 253
    · rw [compactSize_small h253, List.length_singleton] at h3; omega
    · omega
  refine ⟨b, ?_, ?_⟩
  · congr 1
    exact leValue_inj (by rw [hr]; rfl) (by rw [hv]; decide)
  · rcases byte_cases b with ⟨hb, _⟩ | rfl | hb
    · have : extraBytes b = 0 := by simp [extraBytes, hb]
      omega
    · exfalso; rw [hr] at h1; revert h1; decide
    · exact hb

namespace Tx

abbrev insMid := SeqMid (α := TxIn) (β := In) (·.status) readIn TxIn.InMid TxIn.InDone
abbrev insDone := SeqDone (α := TxIn) (β := In) (·.status) TxIn.InDone
abbrev outsMid := SeqMid (α := TxOut) (β := Out) (·.status) readOut TxOut.Mid TxOut.Holds
abbrev outsDone := SeqDone (α := TxOut) (β := Out) (·.status) TxOut.Holds
/-- All witnesses parsed. -/
abbrev witsDone : List TxIn → List (List Bytes) → Prop := List.Forall₂ fun t w => t.witness.status = .done ∧ t.witness.Holds w

/-- Everything but the locktime has been parsed; `l` is what follows. -/
def Parsed (t : Tx) (sw : Bool) (n : Nat) (is : List In) (os : List Out) (r2 l : Bytes) : Prop :=
  outsDone t.txOuts os ∧ List.Forall₂ (fun (t : TxIn) i => t.status = .done ∧ t.HoldsBody i) t.txIns is ∧
  ((sw = false ∧ (∀ i ∈ t.txIns, i.witness = {}) ∧ r2 = l) ∨ (sw = true ∧ ∃ ws, readMany readWitness n r2 = .ok ws l ∧ witsDone t.txIns ws))

/-- State after the bytes `q` behind the header. -/
def BodyMid (t : Tx) (sw : Bool) (n : Nat) (q : Bytes) : Prop :=
  (readMany readIn n q = .more ∧ insMid t.txIns q ∧ t.txOuts = [] ∧ t.locktime = 0) ∨
  (∃ is, readMany readIn n q = .ok is [] ∧ insDone t.txIns is ∧ t.txOuts = [] ∧ t.locktime = 0) ∨
  (∃ is o r, readMany readIn n q = .ok is (o :: r) ∧ insDone t.txIns is ∧ t.txOuts.length = o.toNat ∧ readMany readOut o.toNat r = .more ∧
    outsMid t.txOuts r ∧ t.locktime = 0 ∧ (sw = true → r.length ≠ (t.txOuts.map (·.length)).sum)) ∨
  (∃ is o r os r2 l, readMany readIn n q = .ok is (o :: r) ∧ readMany readOut o.toNat r = .ok os r2 ∧ t.Parsed sw n is os r2 l ∧
    l.length < 4 ∧ t.locktime.toNat = leValue l)

/-- State between two calls after the bytes `p` have been consumed. -/
structure Mid (t : Tx) (p : Bytes) : Prop where
  status : t.status = .incomplete
  parsed : t.bytesParsed = p.length
  version : t.version.toNat = leValue (p.take 4)
  shape : (((p.length ≤ 4 ∧ t.segwitFlag = 0) ∨ (∃ vb : Bytes, vb.length = 4 ∧ (p = vb ++ [0] ∨ p = vb ++ [0, 1]) ∧ t.segwitFlag = 1)) ∧
      t.txIns = [] ∧ t.txOuts = [] ∧ t.locktime = 0) ∨
    (∃ hdr sw n q, Hdr hdr sw n (leValue (p.take 4)) ∧ p = hdr ++ q ∧ t.segwitFlag = (if sw then 1 else 0) ∧ t.txIns.length = n ∧ t.BodyMid sw n q)

/-- All inputs and outputs have been parsed. -/
def Bodied (t : Tx) : Prop :=
  ∃ x, t.HoldsBody x ∧ (∀ i ∈ x.ins, ValidIn i ∧ i.witness = []) ∧ (∀ o ∈ x.outs, ValidOut o) ∧ x.ins.length < 256 ∧ x.outs.length < 256

/-- What a call must produce; `B` bytes had been consumed before, `pc` are all bytes so far. -/
def Out (R : Tx × Nat × PStream) (B : Nat) (pc : Bytes) : Prop :=
  match readTx pc with
  | .ok x r => R.1.status = .done ∧ R.1.Holds x ∧ B + R.2.1 + r.length = pc.length ∧ R.2.2 = .of r
  | .bad => R.1.status.Stopped ∧ (R.1.status = .ub → Wide pc)
  | .more => (R.1.status = .incomplete ∧ R.1.Mid pc ∧ B + R.2.1 = pc.length ∧ R.2.2 = .of []) ∨
      (Fragile pc ∧ (R.1.status = .failed ∨ R.1.status = .incomplete ∨ R.1.status = .done ∧ Quirk pc ∧ R.1.Bodied))

theorem finish_stopped (t : Tx) (e : Status) (br : Nat) (s : PStream) (h : e.Stopped) : (t.finish e br s).1.status.Stopped := h

/-! #### Locktime -/

theorem lock_stage (t : Tx) (br : Nat) (c' l pc : Bytes) (v : Nat) (ins : List In) (os : List Spec.Out)
    (hst : t.status = .incomplete) (hcomp : t.completed = true) (hpos : br + t.bytesParsed = t.lockOffset + l.length)
    (hlen : br + t.bytesParsed + c'.length = pc.length) (hl : l.length < 4) (hlock : t.locktime.toNat = leValue l)
    (hrd : readTx pc = readLocktime v ins os (l ++ c'))
    (hH : ∀ (lk : UInt32) st bp, ({ t with locktime := lk, status := st, bytesParsed := bp } : Tx).Holds ⟨v, ins, os, lk.toNat⟩)
    (hM : ∀ lk : UInt32, (l ++ c').length < 4 → lk.toNat = leValue (l ++ c') →
      ({ t with locktime := lk, status := .incomplete, bytesParsed := pc.length } : Tx).Mid pc) :
    Out (t.readLock br (.of c')) t.bytesParsed pc := by
  unfold readLock
  simp only [PStream.readN_of]
  have h4 : t.lockOffset + 4 - (br + t.bytesParsed) = 4 - l.length := by omega
  rw [h4, if_neg (by omega)]
  have hbr : br + t.bytesParsed - t.lockOffset = l.length := by omega
  rw [hbr]
  have hacc := accLE_spec (c'.take (4 - l.length)) l t.locktime hlock (by rw [List.length_take]; omega)
  generalize accLE t.locktime l.length (c'.take (4 - l.length)) = lk at hacc
  have hlo : ∀ (lk : UInt32), ({ t with locktime := lk } : Tx).lockOffset = t.lockOffset := fun _ => rfl
  have hco : ∀ (lk : UInt32), ({ t with locktime := lk } : Tx).completed = t.completed := fun _ => rfl
  unfold Out readLocktime at *
  rw [hrd, hlo, hco, hcomp]
  unfold finish
  simp only
  by_cases hlt : (l ++ c').length < 4
  · rw [if_pos hlt]
    have hlt' := hlt
    rw [List.length_append] at hlt'
    have et : c'.take (4 - l.length) = c' := List.take_of_length_le (by omega)
    have ed : c'.drop (4 - l.length) = [] := List.drop_of_length_le (by omega)
    rw [et] at hacc ⊢
    rw [ed, if_neg (by omega)]
    have hbp : t.bytesParsed + (br + c'.length) = pc.length := by omega
    left
    simp only [hst]
    refine ⟨trivial, ?_, hbp, trivial⟩
    rw [hbp]
    exact hM lk hlt hacc
  · rw [if_neg hlt]
    rw [List.length_append] at hlt
    have et : (l ++ c').take 4 = l ++ c'.take (4 - l.length) := by
      rw [List.take_append, List.take_of_length_le (show l.length ≤ 4 by omega)]
    have ed : (l ++ c').drop 4 = c'.drop (4 - l.length) := by
      rw [List.drop_append, List.drop_of_length_le (show l.length ≤ 4 by omega)]; rfl
    have lt : (c'.take (4 - l.length)).length = 4 - l.length := by simp; omega
    rw [et, ed, lt, ← hacc]
    simp only
    rw [if_pos ⟨by omega, trivial⟩]
    refine ⟨?_, hH lk _ _, by rw [List.length_drop]; omega, ?_⟩ <;> first | rfl | trivial

/-- With nothing left to read and something unfinished, the state stays. -/
theorem lock_idle (t : Tx) (br : Nat) (hst : t.status = .incomplete) (h : ¬ (br + t.bytesParsed = t.lockOffset + 4 ∧ t.completed = true)) :
    t.readLock br (.of []) = ({ t with bytesParsed := t.bytesParsed + br }, br, .of []) := by
  unfold readLock
  simp only [PStream.readN_of, List.take_nil, List.drop_nil]
  rw [if_neg (by simp)]
  unfold finish
  simp only [List.length_nil, Nat.add_zero, accLE]
  show (({ t with status := if br + t.bytesParsed = t.lockOffset + 4 ∧ t.completed = true then .done else t.status, bytesParsed := t.bytesParsed + br } : Tx), br, PStream.of []) = _
  rw [if_neg h]

/-! #### Witnesses -/

/-- The bytes `pc` reach behind the outputs; `r2` is what follows them. -/
structure Ctx (pc hdr : Bytes) (sw : Bool) (n v : Nat) (q : Bytes) (is : List In) (o : UInt8) (r : Bytes) (os : List Spec.Out) (r2 : Bytes) : Prop where
  head : Hdr hdr sw n v
  all : pc = hdr ++ q
  ins : readMany readIn n q = .ok is (o :: r)
  outs : readMany readOut o.toNat r = .ok os r2

variable {pc hdr : Bytes} {sw : Bool} {n v : Nat} {q : Bytes} {is : List In} {o : UInt8} {r : Bytes} {os : List Spec.Out} {r2 : Bytes}

theorem readMany_in_suffix {r : Bytes} (h : readMany readIn n q = .ok is r) : r <:+ q := by
  rw [((codecMany codecIn n).sound _ _ _ h).1]; exact List.suffix_append _ _

theorem readMany_out_suffix {k : Nat} (h : readMany readOut k r = .ok os r2) : r2 <:+ r := by
  rw [((codecMany codecOut k).sound _ _ _ h).1]; exact List.suffix_append _ _

theorem Ctx.tail_suffix (h : Ctx pc hdr sw n v q is o r os r2) : r2 <:+ pc := by
  rw [h.all]
  exact (((readMany_out_suffix h.outs).trans (List.suffix_cons o r)).trans (readMany_in_suffix h.ins)).trans (List.suffix_append _ _)

theorem _root_.UB.Hdr.version (h : Hdr hdr sw n v) (q : Bytes) : leValue ((hdr ++ q).take 4) = v := by
  obtain ⟨vb, h1, h2, h3, ⟨rfl, h4, rfl⟩ | ⟨rfl, rfl⟩⟩ := h <;>
    rw [List.append_assoc, List.take_append_of_le_length (by omega), List.take_of_length_le (by omega), h2]

theorem Ctx.readTx (h : Ctx pc hdr sw n v q is o r os r2) : Spec.readTx pc = readTail sw v is os r2 := by
  rw [h.all, h.head.readTx]
  unfold readAfterCount readAfterIns
  rw [h.ins]; simp only; rw [h.outs]

theorem Ctx.is_length (h : Ctx pc hdr sw n v q is o r os r2) : is.length = n := ((codecMany codecIn n).sound _ _ _ h.ins).2.1

theorem ins_len {ts : List TxIn} (h : readMany readIn n q = .ok is r) (hb : List.Forall₂ (fun (t : TxIn) i => t.HoldsBody i) ts is) :
    (ts.map (·.length)).sum + r.length = q.length := by
  obtain ⟨e1, e2, e3⟩ := (codecMany codecIn n).sound _ _ _ h
  rw [seqDone_ins ts is hb (fun i hi => (e3 i hi).1.script), e1, List.length_append]

theorem outs_len {n : Nat} {ts : List TxOut} (h : readMany readOut n q = .ok os r) (hb : List.Forall₂ (fun (t : TxOut) i => t.Holds i) ts os) :
    (ts.map (·.length)).sum + r.length = q.length := by
  obtain ⟨e1, e2, e3⟩ := (codecMany codecOut n).sound _ _ _ h
  rw [seqDone_outs ts os hb (fun i hi => (e3 i hi).script), e1, List.length_append]

theorem Ctx.witOffset (h : Ctx pc hdr sw n v q is o r os r2) (t : Tx) (hf : t.segwitFlag = if sw then 1 else 0)
    (hi : List.Forall₂ (fun (t : TxIn) i => t.status = .done ∧ t.HoldsBody i) t.txIns is) (ho : outsDone t.txOuts os) :
    t.witOffset + r2.length = pc.length := by
  have h1 := ins_len h.ins (hi.imp fun _ _ h => h.2)
  have h2 := outs_len h.outs (ho.imp fun _ _ h => h.2)
  rw [List.length_cons] at h1
  unfold Tx.witOffset outOffset
  rw [h.all, List.length_append, h.head.length, hf]
  cases sw <;> simp only [if_true, Bool.false_eq_true, if_false] <;> omega

theorem Ctx.lockOffset (h : Ctx pc hdr sw n v q is o r os r2) (t : Tx) (hf : t.segwitFlag = if sw then 1 else 0) (l : Bytes)
    (hp : t.Parsed sw n is os r2 l) : t.lockOffset + l.length = pc.length := by
  have h1 := h.witOffset t hf hp.2.1 hp.1
  unfold Tx.lockOffset
  rcases hp.2.2 with ⟨rfl, _, rfl⟩ | ⟨rfl, ws, hw, hd⟩
  · rw [hf]; simpa using h1
  · rw [hf, if_pos (by simp)]
    obtain ⟨e1, e2, e3⟩ := (codecMany codecWitness n).sound _ _ _ hw
    rw [seqDone_wits t.txIns ws (hd.imp fun _ _ h => h.2) (fun i hi => (e3 i hi).1)]
    rw [e1, List.length_append] at h1; omega

theorem forall₂_left {α β : Type} {R : α → β → Prop} {xs : List α} {ys : List β} (h : List.Forall₂ R xs ys) {P : α → Prop} (hp : ∀ a b, R a b → P a) :
    ∀ a ∈ xs, P a := by
  induction h with
  | nil => simp
  | cons h _ ih => intro a ha; rcases List.mem_cons.mp ha with rfl | ha; exact hp _ _ h; exact ih a ha

theorem completed_parsed (t : Tx) (l : Bytes) (hf : t.segwitFlag = if sw then 1 else 0) (hp : t.Parsed sw n is os r2 l) : t.completed = true := by
  unfold completed
  rw [Bool.and_eq_true, List.all_eq_true, List.all_eq_true]
  have h1 := forall₂_left hp.1 (P := fun a => a.status = .done) fun _ _ h => h.1
  have h2 := forall₂_left hp.2.1 (P := fun a => a.status = .done) fun _ _ h => h.1
  refine ⟨fun i hi => ?_, fun o ho => by simpa using h1 o ho⟩
  rw [decide_eq_true_eq]
  refine ⟨h2 i hi, fun hs => ?_⟩
  rcases hp.2.2 with ⟨rfl, _, rfl⟩ | ⟨rfl, ws, hw, hd⟩
  · rw [hf] at hs; simp at hs
  · exact forall₂_left hd (P := fun a => a.witness.status = .done) (fun _ _ h => h.1) i hi

theorem holds_with {ts : List TxIn} {ws : List (List Bytes)} (hi : List.Forall₂ (fun (t : TxIn) i => t.status = .done ∧ t.HoldsBody i) ts is)
    (hw : witsDone ts ws) : List.Forall₂ TxIn.Holds ts (withWitnesses is ws) := by
  induction hi generalizing ws with
  | nil => cases hw; exact .nil
  | cons h _ ih =>
    cases hw with
    | cons hw1 hw2 =>
      exact .cons ⟨⟨h.2.hash, h.2.hash_len, h.2.index, h.2.script, h.2.sequence⟩, hw1.2⟩ (ih hw2)

theorem Witness.holds_empty : ({} : Witness).Holds [] := ⟨rfl, rfl⟩

theorem holds_without {ts : List TxIn} (hi : List.Forall₂ (fun (t : TxIn) i => t.status = .done ∧ t.HoldsBody i) ts is)
    (hw : ∀ i ∈ ts, i.witness = {}) (hv : ∀ i ∈ is, i.witness = []) : List.Forall₂ TxIn.Holds ts is := by
  induction hi with
  | nil => exact .nil
  | cons h _ ih =>
    refine .cons ⟨h.2, ?_⟩ (ih (fun i hi => hw i (by simp [hi])) (fun i hi => hv i (by simp [hi])))
    rw [hw _ (by simp), hv _ (by simp)]
    exact Witness.holds_empty

/-- The last stage with everything parsed. -/
theorem parsed_stage (h : Ctx pc hdr sw n v q is o r os r2) (t : Tx) (br : Nat) (c' l : Bytes) (hst : t.status = .incomplete)
    (hv : t.version.toNat = v) (hf : t.segwitFlag = if sw then 1 else 0) (hn : t.txIns.length = n) (hp : t.Parsed sw n is os r2 (l ++ c'))
    (hlen : br + t.bytesParsed + c'.length = pc.length) (hl : l.length < 4) (hlock : t.locktime.toNat = leValue l) :
    Out (t.readLock br (.of c')) t.bytesParsed pc := by
  have hlo := h.lockOffset t hf _ hp
  rw [List.length_append] at hlo
  have hM : ∀ lk : UInt32, (l ++ c').length < 4 → lk.toNat = leValue (l ++ c') →
      ({ t with locktime := lk, status := .incomplete, bytesParsed := pc.length } : Tx).Mid pc := by
    intro lk h1 h2
    have hver := h.head.version q
    refine ⟨rfl, rfl, by rw [h.all, hver]; exact hv, Or.inr ⟨hdr, sw, n, q, by rw [h.all, hver]; exact h.head, h.all, hf, hn, ?_⟩⟩
    exact Or.inr (Or.inr (Or.inr ⟨is, o, r, os, r2, l ++ c', h.ins, h.outs, hp, h1, h2⟩))
  have key : ∀ ins, Spec.readTx pc = readLocktime v ins os (l ++ c') → List.Forall₂ TxIn.Holds t.txIns ins → Out (t.readLock br (.of c')) t.bytesParsed pc :=
    fun ins h1 h2 => lock_stage t br c' l pc v ins os hst (completed_parsed t _ hf hp) (by omega) hlen hl hlock h1
      (fun lk st bp => ⟨hv, h2, hp.1.imp fun _ _ h => h.2, rfl⟩) hM
  rcases hp.2.2 with ⟨rfl, hw, rfl⟩ | ⟨rfl, ws, hw, hd⟩
  · refine key is (by rw [h.readTx]; rfl) (holds_without hp.2.1 hw fun i hi => ?_)
    exact (((codecMany codecIn n).sound _ _ _ h.ins).2.2 i hi).2
  · refine key (withWitnesses is ws) ?_ (holds_with hp.2.1 hd)
    rw [h.readTx]
    unfold readTail
    rw [if_pos rfl, h.is_length, hw]

theorem contLoop_stopped_empty {α : Type} {f : α → PStream → α × Nat × PStream} {st : α → Status} : ∀ (pre : List α) (x : α) (post : List α),
    (∀ a ∈ pre, ¬ (st a).Stopped) → (st x).Stopped → Tx.contLoop f st (pre ++ x :: post) (.of []) = (pre ++ x :: post, 0, .of [], false)
  | [], x, post, _, hx => by
    rw [List.nil_append, contLoop_stop x post (.of []) (x, 0, .of []) (if_neg (by simp)) hx]
  | a :: pre, x, post, h, hx => by
    rw [List.cons_append, contLoop_go a _ (.of []) (a, 0, .of []) (if_neg (by simp)) (h a (by simp))]
    simp only [contLoop_stopped_empty pre x post (fun b hb => h b (by simp [hb])) hx]

theorem contAll_idle {α : Type} {f : α → PStream → α × Nat × PStream} {st : α → Status} (s : PStream) (xs : List α)
    (h : ∀ x ∈ xs, ¬ (st x).Stopped ∧ (s.avail = true → st x ≠ .incomplete)) : Tx.contAll f st xs s = (xs, 0, s, none) := by
  have e := contLoop_idle (f := f) s xs h
  rw [contAll_good xs s (by rw [e]) (by rw [e]; exact fun x hx => (h x hx).1), e]

theorem readWitnesses_eq (t : Tx) (br : Nat) (s : PStream) (hf : t.segwitFlag = 1) (ins : List TxIn) (n : Nat) (s1 : PStream)
    (h1 : (if br + t.bytesParsed = t.witOffset then parseAll parseWitness t.txIns s else (t.txIns, 0, s)) = (ins, n, s1))
    (h2 : contAll parseWitness (·.witness.status) ins s1 = (ins, 0, s1, none)) :
    t.readWitnesses br s = ({ t with txIns := ins } : Tx).readLock (br + n) s1 := by
  unfold readWitnesses
  rw [if_pos (by omega), h1]
  simp only
  rw [h2]
  rfl

theorem readWitnesses_stop (t : Tx) (br : Nat) (s : PStream) (hf : t.segwitFlag = 1) (e : Status)
    (h2 : (contAll parseWitness (·.witness.status) (if br + t.bytesParsed = t.witOffset then parseAll parseWitness t.txIns s else (t.txIns, 0, s)).1
      (if br + t.bytesParsed = t.witOffset then parseAll parseWitness t.txIns s else (t.txIns, 0, s)).2.2).2.2.2 = some e) :
    (t.readWitnesses br s).1.status = e := by
  unfold readWitnesses
  rw [if_pos (by omega)]
  generalize (if br + t.bytesParsed = t.witOffset then parseAll parseWitness t.txIns s else (t.txIns, 0, s)) = y at h2
  obtain ⟨a, b, c⟩ := y
  simp only at h2 ⊢
  generalize contAll parseWitness (·.witness.status) a c = z at h2
  obtain ⟨a', b', c', d'⟩ := z
  simp only at h2 ⊢
  subst h2
  rfl

theorem wits_resume (h : Ctx pc hdr sw n v q is o r os r2) (t : Tx) (br : Nat) (c' l : Bytes) (hst : t.status = .incomplete)
    (hv : t.version.toNat = v) (hf : t.segwitFlag = if sw then 1 else 0) (hn : t.txIns.length = n) (hp : t.Parsed sw n is os r2 (l ++ c'))
    (hlen : br + t.bytesParsed + c'.length = pc.length) (hl : l.length < 4) (hlock : t.locktime.toNat = leValue l) :
    Out (t.readWitnesses br (.of c')) t.bytesParsed pc := by
  cases sw with
  | false =>
    unfold readWitnesses
    rw [if_neg (by rw [hf]; simp)]
    exact parsed_stage h t br c' l hst hv hf hn hp hlen hl hlock
  | true =>
    have hd : ∀ a ∈ t.txIns, a.witness.status = .done := by
      rcases hp.2.2 with ⟨hc, _⟩ | ⟨_, ws, hw, hd⟩
      · cases hc
      · exact forall₂_left hd fun _ _ h => h.1
    have h1 : (if br + t.bytesParsed = t.witOffset then parseAll parseWitness t.txIns (.of c') else (t.txIns, 0, .of c')) = (t.txIns, 0, .of c') := by
      split_ifs with hw
      · have h3 := h.lockOffset t hf _ hp
        rw [List.length_append] at h3
        unfold Tx.lockOffset at h3
        rw [if_pos (by rw [hf]; simp)] at h3
        have h0 : t.txIns = [] := by
          cases hx : t.txIns with
          | nil => rfl
          | cons x xs =>
            rw [hx] at h3
            simp only [List.map_cons, List.sum_cons] at h3
            have : 1 ≤ x.witness.length := by
              unfold Witness.length lenVarIntN lenVarInt
              split_ifs <;> omega
            omega
        rw [h0]; rfl
      · rfl
    rw [readWitnesses_eq t br _ (by rw [hf]; rfl) _ _ _ h1 (contAll_idle _ _ fun x hx => by
      rw [hd x hx]; exact ⟨not_stopped_done, fun _ => by simp⟩)]
    exact parsed_stage h t br c' l hst hv hf hn hp hlen hl hlock

theorem same_body {ts ts' : List TxIn} (hs : List.Forall₂ TxIn.Same ts ts') (hi : List.Forall₂ (fun (t : TxIn) i => t.status = .done ∧ t.HoldsBody i) ts is) :
    List.Forall₂ (fun (t : TxIn) i => t.status = .done ∧ t.HoldsBody i) ts' is := by
  induction hs generalizing is with
  | nil => cases hi; exact .nil
  | cons h _ ih =>
    cases hi with
    | cons h1 h2 =>
      refine .cons ?_ (ih h2)
      rw [h]
      exact ⟨h1.1, h1.2.hash, h1.2.hash_len, h1.2.index, h1.2.script, h1.2.sequence⟩

theorem same_lengths {ts ts' : List TxIn} (hs : List.Forall₂ TxIn.Same ts ts') : ts'.map (·.length) = ts.map (·.length) := by
  induction hs with
  | nil => rfl
  | cons h _ ih => rw [List.map_cons, List.map_cons, ih, h]; rfl

theorem wits_fresh (h : Ctx pc hdr sw n v q is o r os r2) (t : Tx) (br : Nat) (hst : t.status = .incomplete)
    (hv : t.version.toNat = v) (hf : t.segwitFlag = if sw then 1 else 0) (hn : t.txIns.length = n)
    (hi : insDone t.txIns is) (ho : outsDone t.txOuts os)
    (hlen : br + t.bytesParsed + r2.length = pc.length) (hlock : t.locktime = 0) :
    Out (t.readWitnesses br (.of r2)) t.bytesParsed pc := by
  have hb : List.Forall₂ (fun (t : TxIn) i => t.status = .done ∧ t.HoldsBody i) t.txIns is := hi.imp fun _ _ h => ⟨h.1, h.2.1⟩
  have hw0 : ∀ a ∈ t.txIns, a.witness = {} := forall₂_left hi fun _ _ h => h.2.2
  cases sw with
  | false =>
    unfold readWitnesses
    rw [if_neg (by rw [hf]; simp)]
    exact parsed_stage h t br r2 [] hst hv hf hn ⟨ho, hb, Or.inl ⟨rfl, hw0, rfl⟩⟩ hlen (by simp) (by rw [hlock]; rfl)
  | true =>
    have hwo := h.witOffset t hf hb ho
    have hf1 : t.segwitFlag = 1 := by rw [hf]; rfl
    have hpos : br + t.bytesParsed = t.witOffset := by omega
    have hW := parseWitness_spec t.txIns r2 (fun x hx => by rw [hw0 x hx])
    have hS := parseWitness_same t.txIns (.of r2)
    have hL := parseAll_length (f := parseWitness) t.txIns (.of r2)
    have hrd := h.readTx
    unfold readTail at hrd
    rw [if_pos rfl, h.is_length] at hrd
    unfold WitsRes at hW
    rw [hn] at hW
    have hwide : ∀ y ∈ (parseAll parseWitness t.txIns (.of r2)).1, y.witness.status = .ub → Wide pc := fun y hy hu =>
      (parseWitness_wide t.txIns r2 (fun x hx => by rw [hw0 x hx]) y hy hu).mono h.tail_suffix.isInfix
    have hcut : readMany readWitness n r2 = .more → ∀ y ∈ (parseAll parseWitness t.txIns (.of r2)).1, y.witness.status ≠ .ub := fun e =>
      parseWitness_cut t.txIns r2 (fun x hx => by rw [hw0 x hx]) (by rw [hn]; exact e)
    generalize hy : parseAll parseWitness t.txIns (.of r2) = y at hW hS hL hwide hcut
    obtain ⟨ins', m, s1⟩ := y
    simp only at hW hS hL hwide hcut
    have h1 : (if br + t.bytesParsed = t.witOffset then parseAll parseWitness t.txIns (.of r2) else (t.txIns, 0, .of r2)) = (ins', m, s1) := by
      rw [if_pos hpos, hy]
    cases e : readMany readWitness n r2 with
    | ok ws l =>
      rw [e] at hW
      obtain ⟨k1, k2, rfl⟩ := hW
      have hd : ∀ a ∈ ins', a.witness.status = .done := forall₂_left k1 fun _ _ h => h.1
      rw [readWitnesses_eq t br _ hf1 _ _ _ h1 (contAll_idle _ _ fun x hx => by
        rw [hd x hx]; exact ⟨not_stopped_done, fun _ => by simp⟩)]
      refine parsed_stage h { t with txIns := ins' } (br + m) l [] hst hv hf (by simp only; rw [hL, hn]) ⟨ho, same_body hS hb, Or.inr ⟨rfl, ws, e, k1⟩⟩ ?_ (by simp)
        (by simp only; rw [hlock]; rfl)
      simp only; omega
    | bad =>
      rw [e] at hW hrd
      obtain ⟨pre, x, post, k1, k2, k3⟩ := hW
      have hcl := contLoop_stopped (f := parseWitness) (st := (·.witness.status)) s1 pre x post k2 k3
      obtain ⟨st, g1, g2, g3⟩ := contAll_bad (f := parseWitness) (st := (·.witness.status)) ins' s1 (by rw [k1, hcl])
      unfold Out
      rw [hrd]
      simp only
      rw [readWitnesses_stop t br _ hf1 st (by rw [h1]; exact g1)]
      refine ⟨g2, fun hu => ?_⟩
      obtain ⟨y, hy1, hy2⟩ := g3 hu
      rw [k1, hcl] at hy1
      exact hwide y (by rw [k1]; exact hy1) hy2
    | more =>
      rw [e] at hW hrd
      obtain ⟨k1, rfl, k3⟩ := hW
      have hfr : Fragile pc := ⟨hdr, n, v, q, is, o, r, h.head, h.all, h.ins, Or.inr ⟨os, r2, h.outs, e⟩⟩
      unfold Out
      rw [hrd]
      refine Or.inr ⟨hfr, ?_⟩
      rcases k3 with ⟨pre, x, post, k3, k4, k5⟩ | ⟨pre, x, ws, q2, k3, k4, k5, k6, k7⟩
      · left
        have hcl := contLoop_stopped_empty (f := parseWitness) (st := (·.witness.status)) pre x post k4 k5
        obtain ⟨st, g1, g2, g3⟩ := contAll_bad (f := parseWitness) (st := (·.witness.status)) ins' (.of []) (by rw [k3, hcl])
        rw [readWitnesses_stop t br _ hf1 st (by rw [h1]; exact g1)]
        refine g2.resolve_right fun hu => ?_
        obtain ⟨y, hy1, hy2⟩ := g3 hu
        rw [k3, hcl] at hy1
        exact hcut e y (by rw [k3]; exact hy1) hy2
      · right
        have hns : ∀ a ∈ ins', ¬ a.witness.status.Stopped := by
          intro a ha
          rw [k3] at ha
          rcases List.mem_append.mp ha with ha | ha
          · rw [forall₂_left k5 (P := fun a => a.witness.status = .done) (fun _ _ h => h.1) a ha]; exact not_stopped_done
          · rw [List.mem_singleton.mp ha]
            rcases k7 with k7 | ⟨_, _, _, _, k7, _⟩
            · rw [k7]; exact not_stopped_incomplete
            · rw [k7]; exact not_stopped_done
        rw [readWitnesses_eq t br _ hf1 _ _ _ h1 (contAll_idle _ _ fun x hx => ⟨hns x hx, fun h => by simp at h⟩)]
        by_cases hend : br + m + t.bytesParsed = ({ t with txIns := ins' } : Tx).lockOffset + 4 ∧ ({ t with txIns := ins' } : Tx).completed = true
        · right
          have hxd : x.witness.status = .done := by
            have := hend.2
            unfold completed at this
            rw [Bool.and_eq_true, List.all_eq_true] at this
            have := this.1 x (by simp only; rw [k3]; simp)
            rw [decide_eq_true_eq] at this
            exact this.2 (by simp only; omega)
          rcases k7 with k7 | ⟨n', es, q', kc, _, kn, kp, ke, ka⟩
          · rw [k7] at hxd; cases hxd
          · refine ⟨?_, ?_, ?_⟩
            · unfold readLock finish
              simp only [PStream.readN_of, List.take_nil, List.length_nil, accLE]
              rw [if_neg (by simp)]
              exact if_pos hend
            · have h3 := hend.1
              unfold Tx.lockOffset at h3
              rw [if_pos (by simp only; omega)] at h3
              have hwo' : ({ t with txIns := ins' } : Tx).witOffset = t.witOffset := by
                unfold Tx.witOffset outOffset
                simp only
                rw [same_lengths hS]
              rw [hwo'] at h3
              simp only at h3
              have hxl : x.witness.length = 1 + (Witness.flat es).length := by
                unfold Witness.length
                have := kc.2.2.1
                rw [ke, ka, lenVarIntN_eq _ (by omega), compactSize_small this]; simp; omega
              have hq2 := congrArg List.length kc.1
              have hr2 := congrArg List.length k4
              have hsum : (ins'.map (·.witness.length)).sum = (ws.flatMap witnessBytes).length + x.witness.length := by
                rw [k3, List.map_append, List.sum_append, seqDone_wits pre ws (k5.imp fun _ _ h => h.2) (fun w hw => (k6 w hw).1)]
                simp
              rw [hsum] at h3
              rw [List.length_append] at hr2
              rw [List.length_cons, List.length_append] at hq2
              obtain ⟨b, rfl, hb4⟩ := phantom_four q' kp (by omega)
              obtain ⟨e1, _⟩ := (codecMany codecIn n).sound _ _ _ h.ins
              obtain ⟨e2, _⟩ := (codecMany codecOut o.toNat).sound _ _ _ h.outs
              refine ⟨hdr ++ (is.flatMap inBytes ++ o :: (os.flatMap outBytes ++ (ws.flatMap witnessBytes ++ UInt8.ofNat n' :: Witness.flat es))), b, ?_, hb4⟩
              rw [h.all, e1, e2, k4, kc.1]
              simp
            · obtain ⟨-, e1, e2⟩ := (codecMany codecIn n).sound _ _ _ h.ins
              obtain ⟨-, f1, f2⟩ := (codecMany codecOut o.toNat).sound _ _ _ h.outs
              have hn : n < 256 := by obtain ⟨_, _, _, hn, _⟩ := h.head; exact hn
              unfold readLock
              simp only [PStream.readN_of, List.take_nil, List.length_nil, accLE]
              rw [if_neg (by simp)]
              exact ⟨⟨t.version.toNat, is, os, t.locktime.toNat⟩, ⟨rfl, (same_body hS hb).imp fun _ _ h => h.2, ho.imp fun _ _ h => h.2, rfl⟩,
                e2, f2, by rw [e1]; exact hn, by rw [f1]; exact o.toNat_lt⟩
        · left
          rw [lock_idle { t with txIns := ins' } _ hst hend]
          exact hst

/-! #### Nothing left to read -/

theorem wits_idle (t : Tx) (br : Nat) (hst : t.status = .incomplete) (hw : ∀ i ∈ t.txIns, ¬ i.witness.status.Stopped)
    (hpos : t.segwitFlag > 0 → br + t.bytesParsed ≠ t.witOffset) (h : ¬ (br + t.bytesParsed = t.lockOffset + 4 ∧ t.completed = true)) :
    t.readWitnesses br (.of []) = ({ t with bytesParsed := t.bytesParsed + br }, br, .of []) := by
  unfold readWitnesses
  split_ifs with hf h1
  · exact absurd h1 (hpos hf)
  · simp only
    rw [contAll_idle _ _ fun x hx => ⟨hw x hx, fun h => by simp at h⟩]
    exact lock_idle t br hst h
  · exact lock_idle t br hst h

theorem outs_idle (t : Tx) (br : Nat) (hst : t.status = .incomplete) (ho : ∀ i ∈ t.txOuts, ¬ i.status.Stopped) (hw : ∀ i ∈ t.txIns, ¬ i.witness.status.Stopped)
    (hpos : t.segwitFlag > 0 → br + t.bytesParsed ≠ t.witOffset) (h : ¬ (br + t.bytesParsed = t.lockOffset + 4 ∧ t.completed = true)) :
    t.readOuts br (.of []) = ({ t with bytesParsed := t.bytesParsed + br }, br, .of []) := by
  have e : t.readOutCount br (.of []) = (t, br, .of []) := by unfold readOutCount; rw [if_neg (by simp)]
  unfold readOuts
  rw [e]
  simp only
  rw [contAll_idle _ _ fun x hx => ⟨ho x hx, fun h => by simp at h⟩]
  exact wits_idle t br hst hw hpos h

theorem ins_idle (t : Tx) (br : Nat) (hst : t.status = .incomplete) (hi : ∀ i ∈ t.txIns, ¬ i.status.Stopped) (ho : ∀ i ∈ t.txOuts, ¬ i.status.Stopped)
    (hw : ∀ i ∈ t.txIns, ¬ i.witness.status.Stopped)
    (hpos : t.segwitFlag > 0 → br + t.bytesParsed ≠ t.witOffset) (h : ¬ (br + t.bytesParsed = t.lockOffset + 4 ∧ t.completed = true)) :
    t.readIns br (.of []) = ({ t with bytesParsed := t.bytesParsed + br }, br, .of []) := by
  unfold readIns
  rw [contAll_idle _ _ fun x hx => ⟨hi x hx, fun h => by simp at h⟩]
  exact outs_idle t br hst ho hw hpos h

theorem fresh_not_stopped {ts : List TxIn} (h : ∀ a ∈ ts, a.witness = {}) : ∀ i ∈ ts, ¬ i.witness.status.Stopped := by
  intro i hi
  rw [h i hi]
  exact not_stopped_done

/-- A partly read list is not finished. -/
theorem seqMid_unfinished {α β : Type} {f : α → PStream → α × Nat × PStream} {st : α → Status} {rd : Bytes → Outcome β} {Mid : α → Bytes → Prop}
    {Done : α → β → Prop} (F : Feeds f st rd Mid Done) : ∀ (xs : List α) (q : Bytes), readMany rd xs.length q = .more → SeqMid st rd Mid Done xs q →
      ∃ x ∈ xs, st x = .incomplete
  | [], _, h, _ => by cases h
  | x :: xs, q, h, hs => by
    rcases hs with ⟨_, h2, _⟩ | ⟨d, r, h1, _, h3, h4⟩
    · exact ⟨x, by simp, F.inc _ _ h2⟩
    · have hm2 : readMany rd xs.length r = .more := by
        cases e : readMany rd xs.length r with
        | more => rfl
        | bad => rw [List.length_cons, readMany_ok_bad _ h1 e] at h; cases h
        | ok ys r2 => rw [List.length_cons, readMany_ok_ok _ h1 e] at h; cases h
      obtain ⟨y, hy, hy2⟩ := seqMid_unfinished F xs r hm2 h4
      exact ⟨y, by simp [hy], hy2⟩

/-! #### Outputs -/

theorem mid_out (t : Tx) (br : Nat) (h : ({ t with bytesParsed := t.bytesParsed + br } : Tx).Mid pc) (hlen : br + t.bytesParsed = pc.length)
    (hrd : Spec.readTx pc = .more) : Out (({ t with bytesParsed := t.bytesParsed + br } : Tx), br, .of []) t.bytesParsed pc := by
  unfold Out
  rw [hrd]
  exact Or.inl ⟨h.status, h, by simp only; omega, rfl⟩

/-- The outputs are not complete and nothing is left. -/
theorem outs_more (hh : Hdr hdr sw n v) (hall : pc = hdr ++ q) (hins : readMany readIn n q = .ok is (o :: r)) (hm : readMany readOut o.toNat r = .more)
    (t : Tx) (br : Nat) (hst : t.status = .incomplete) (hv : t.version.toNat = v) (hf : t.segwitFlag = if sw then 1 else 0) (hn : t.txIns.length = n)
    (hi : insDone t.txIns is) (ho : outsMid t.txOuts r) (hol : t.txOuts.length = o.toNat)
    (hlen : br + t.bytesParsed = pc.length) (hlock : t.locktime = 0) :
    Out (t.readWitnesses br (.of [])) t.bytesParsed pc := by
  have hw0 : ∀ a ∈ t.txIns, a.witness = {} := forall₂_left hi fun _ _ h => h.2.2
  have hil := ins_len hins (hi.imp fun _ _ h => h.2.1)
  rw [List.length_cons] at hil
  have hrd : Spec.readTx pc = .more := by
    rw [hall, hh.readTx]; unfold readAfterCount readAfterIns; rw [hins]; simp only; rw [hm]
  have hincomplete : ¬ (t.completed = true) := by
    intro hc
    obtain ⟨x, hx, hx2⟩ := seqMid_unfinished TxOut.feeds t.txOuts r (by rw [hol]; exact hm) ho
    unfold completed at hc
    rw [Bool.and_eq_true, List.all_eq_true, List.all_eq_true] at hc
    have := hc.2 x hx
    rw [hx2] at this
    simp at this
  have hpl : t.witOffset + r.length = pc.length + (t.txOuts.map (·.length)).sum := by
    unfold Tx.witOffset outOffset
    rw [hall, List.length_append, hh.length, hf]
    cases sw <;> simp only [if_true, Bool.false_eq_true, if_false] <;> omega
  have hver := hh.version q
  have good : (sw = true → r.length ≠ (t.txOuts.map (·.length)).sum) → Out (t.readWitnesses br (.of [])) t.bytesParsed pc := by
    intro hne
    rw [wits_idle t br hst (fresh_not_stopped hw0) ?_ (fun h => hincomplete h.2)]
    · refine mid_out t br ?_ hlen hrd
      have hbp : t.bytesParsed + br = pc.length := by omega
      exact ⟨hst, hbp, by rw [hall, hver]; exact hv, Or.inr ⟨hdr, sw, n, q, by rw [hall, hver]; exact hh, hall, hf, hn,
        Or.inr (Or.inr (Or.inl ⟨is, o, r, hins, hi, hol, hm, ho, hlock, hne⟩))⟩⟩
    · intro hs
      rw [hf] at hs
      have : sw = true := by cases sw <;> simp at hs ⊢
      have := hne this
      omega
  by_cases hsw : sw = true ∧ r.length = (t.txOuts.map (·.length)).sum
  · obtain ⟨rfl, heq⟩ := hsw
    have hfr : Fragile pc := ⟨hdr, n, v, q, is, o, r, hh, hall, hins, Or.inl ⟨hm, by
      have := (seqMid_outs t.txOuts r (by rw [hol]; exact hm) ho).2 heq
      rw [hol] at this; exact this⟩⟩
    have hf1 : t.segwitFlag = 1 := by rw [hf]; rfl
    have hpos : br + t.bytesParsed = t.witOffset := by omega
    unfold Out
    rw [hrd]
    refine Or.inr ⟨hfr, ?_⟩
    cases hx : t.txIns with
    | nil =>
      right; left
      have h1 : (if br + t.bytesParsed = t.witOffset then parseAll parseWitness t.txIns (.of []) else (t.txIns, 0, .of [])) = (t.txIns, 0, .of []) := by
        rw [hx, if_pos hpos]; rfl
      rw [readWitnesses_eq t br _ hf1 _ _ _ h1 (contAll_idle _ _ (by rw [hx]; simp)), lock_idle t _ hst (fun h => hincomplete h.2)]
      exact hst
    | cons x xs =>
      left
      have hx1 := Witness.fromStream_empty x.witness (by rw [hw0 x (by rw [hx]; simp)])
      have hp : (parseAll parseWitness t.txIns (.of [])).1 = ({ x with witness := (x.witness.fromStream (.of [])).1 } : TxIn) ::
          (parseAll parseWitness xs (x.witness.fromStream (.of [])).2.2).1 := by
        rw [hx, parseAll_cons, parseWitness_eq]
      have hcl := contLoop_stopped (f := parseWitness) (st := (·.witness.status)) (parseAll parseWitness t.txIns (.of [])).2.2 []
        ({ x with witness := (x.witness.fromStream (.of [])).1 } : TxIn) (parseAll parseWitness xs (x.witness.fromStream (.of [])).2.2).1 (by simp) (Or.inl hx1.1)
      rw [List.nil_append, ← hp] at hcl
      obtain ⟨st, g1, g2, g3⟩ := contAll_bad (f := parseWitness) (st := (·.witness.status)) (parseAll parseWitness t.txIns (.of [])).1
        (parseAll parseWitness t.txIns (.of [])).2.2 (by rw [hcl])
      rw [readWitnesses_stop t br _ hf1 st (by rw [if_pos hpos]; exact g1)]
      refine g2.resolve_right fun hu => ?_
      obtain ⟨y, hy1, hy2⟩ := g3 hu
      rw [hcl] at hy1
      obtain ⟨a, b, e, -⟩ := parseWitness_wide t.txIns [] (fun x hx => by rw [hw0 x hx]) y hy1 hy2
      cases a <;> cases e
  · exact good fun h1 h2 => hsw ⟨h1, h2⟩

/-- What follows the pass over the outputs. -/
def afterOuts (t : Tx) (outs : List TxOut) (br : Nat) (s : PStream) (res : Option Status) : Tx × Nat × PStream :=
  match res with
  | some st => ({ t with txOuts := outs } : Tx).finish st br s
  | none => ({ t with txOuts := outs } : Tx).readWitnesses br s

/-- Result of a pass over a list, with bytes `r` in total of which `c` come from this call. -/
def PassRes {α β : Type} (rd : Outcome (List β)) (SM : List α → Bytes → Prop) (SD : List α → List β → Prop) (xs : List α) (m : Nat) (s : PStream)
    (res : Option Status) (r c : Bytes) : Prop :=
  match rd with
  | .more => res = none ∧ SM xs r ∧ m = c.length ∧ s = .of []
  | .ok ys r' => res = none ∧ SD xs ys ∧ m + r'.length = c.length ∧ s = .of r'
  | .bad => ∃ e, res = some e ∧ e.Stopped ∧ (e = .ub → Wide r)

theorem contAll_length {α : Type} {f : α → PStream → α × Nat × PStream} {st : α → Status} (xs : List α) (s : PStream) :
    (contAll f st xs s).1.length = xs.length := by
  unfold contAll
  exact contLoop_length _ _

/-- Finishing the pass over the outputs. -/
theorem outs_cont (hh : Hdr hdr sw n v) (hall : pc = hdr ++ q) (hins : readMany readIn n q = .ok is (o :: r))
    (t : Tx) (br : Nat) (c' : Bytes) (hst : t.status = .incomplete) (hv : t.version.toNat = v) (hf : t.segwitFlag = if sw then 1 else 0) (hn : t.txIns.length = n)
    (hi : insDone t.txIns is) (outs : List TxOut) (m : Nat) (s : PStream) (res : Option Status) (hol : outs.length = o.toNat) (hlock : t.locktime = 0)
    (hres : PassRes (readMany readOut o.toNat r) outsMid outsDone outs m s res r c')
    (hlen : br + t.bytesParsed + c'.length = pc.length) : Out (t.afterOuts outs (br + m) s res) t.bytesParsed pc := by
  unfold PassRes at hres
  unfold afterOuts
  cases e : readMany readOut o.toNat r with
  | more =>
    rw [e] at hres
    obtain ⟨rfl, h1, rfl, rfl⟩ := hres
    exact outs_more hh hall hins e { t with txOuts := outs } (br + c'.length) hst hv hf hn hi h1 hol (by simp only; omega) hlock
  | ok os r' =>
    rw [e] at hres
    obtain ⟨rfl, h1, h2, rfl⟩ := hres
    exact wits_fresh ⟨hh, hall, hins, e⟩ { t with txOuts := outs } (br + m) hst hv hf hn hi h1 (by simp only; omega) hlock
  | bad =>
    rw [e] at hres
    obtain ⟨st, rfl, h1, h2⟩ := hres
    unfold Out
    have hrd : Spec.readTx pc = .bad := by
      rw [hall, hh.readTx]; unfold readAfterCount readAfterIns; rw [hins]; simp only; rw [e]
    rw [hrd]
    refine ⟨h1, fun hu => (h2 hu).mono ?_⟩
    rw [hall]
    exact (((List.suffix_cons o r).trans (readMany_in_suffix hins)).trans (List.suffix_append _ _)).isInfix

theorem readOuts_eq (t : Tx) (br : Nat) (s : PStream) (t1 : Tx) (br1 : Nat) (s1 : PStream) (h : t.readOutCount br s = (t1, br1, s1)) (z : List TxOut × Nat × PStream × Option Status)
    (hz : contAll TxOut.fromStream (·.status) t1.txOuts s1 = z) :
    t.readOuts br s = t1.afterOuts z.1 (br1 + z.2.1) z.2.2.1 z.2.2.2 := by
  unfold readOuts
  rw [h]
  simp only
  rw [hz]
  rfl

theorem outOffset_done (hh : Hdr hdr sw n v) (t : Tx) (hf : t.segwitFlag = if sw then 1 else 0) (hins : readMany readIn n q = .ok is r)
    (hi : List.Forall₂ (fun (t : TxIn) i => t.HoldsBody i) t.txIns is) : t.outOffset + r.length = (hdr ++ q).length := by
  have hil := ins_len hins hi
  unfold outOffset
  rw [List.length_append, hh.length, hf]
  cases sw <;> simp only [if_true, Bool.false_eq_true, if_false] <;> omega

theorem seqDone_length {α β : Type} {R : α → β → Prop} {xs : List α} {ys : List β} (h : List.Forall₂ R xs ys) : xs.length = ys.length := h.length_eq

theorem outs_fresh (hh : Hdr hdr sw n v) (hall : pc = hdr ++ q) (c' : Bytes) (hins : readMany readIn n q = .ok is c')
    (t : Tx) (br : Nat) (hst : t.status = .incomplete) (hv : t.version.toNat = v) (hf : t.segwitFlag = if sw then 1 else 0) (hn : t.txIns.length = n)
    (hi : insDone t.txIns is) (ho : t.txOuts = []) (hlock : t.locktime = 0) (hlen : br + t.bytesParsed + c'.length = pc.length) :
    Out (t.readOuts br (.of c')) t.bytesParsed pc := by
  have hoff := outOffset_done hh t hf hins (hi.imp fun _ _ h => h.2.1)
  rw [← hall] at hoff
  have hpos : br + t.bytesParsed = t.outOffset := by omega
  have hw0 : ∀ a ∈ t.txIns, a.witness = {} := forall₂_left hi fun _ _ h => h.2.2
  cases c' with
  | nil =>
    have hlo : t.outOffset < t.witOffset := by unfold Tx.witOffset; omega
    have hwl : t.witOffset ≤ t.lockOffset := by unfold Tx.lockOffset; omega
    rw [outs_idle t br hst (by rw [ho]; simp) (fresh_not_stopped hw0) (by omega) (by omega)]
    have hver := hh.version q
    refine mid_out t br ?_ (by simpa using hlen) ?_
    · have hbp : t.bytesParsed + br = pc.length := by rw [List.length_nil] at hlen; omega
      exact ⟨hst, hbp, by rw [hall, hver]; exact hv, Or.inr ⟨hdr, sw, n, q, by rw [hall, hver]; exact hh, hall, hf, hn, Or.inr (Or.inl ⟨is, hins, hi, ho, hlock⟩)⟩⟩
    · rw [hall, hh.readTx]; unfold readAfterCount readAfterIns; rw [hins]
  | cons o r =>
    have hP := parseAll_spec TxOut.feeds (List.replicate o.toNat {}) r (fun a ha => by rw [List.eq_of_mem_replicate ha]; exact TxOut.fresh)
    rw [List.length_replicate] at hP
    have hcount : t.readOutCount br (.of (o :: r)) = ({ t with txOuts := (parseAll TxOut.fromStream (List.replicate o.toNat {}) (.of r)).1 },
        br + 1 + (parseAll TxOut.fromStream (List.replicate o.toNat {}) (.of r)).2.1, (parseAll TxOut.fromStream (List.replicate o.toNat {}) (.of r)).2.2) := by
      unfold readOutCount
      rw [if_pos ⟨rfl, hpos⟩]
      rfl
    generalize parseAll TxOut.fromStream (List.replicate o.toNat {}) (.of r) = y at hP hcount
    obtain ⟨outs, m, s⟩ := y
    simp only at hP hcount
    rw [readOuts_eq t br _ _ _ _ hcount _ rfl]
    simp only
    obtain ⟨hl, hP⟩ := hP
    have e1 : br + 1 + m + (contAll TxOut.fromStream (·.status) outs s).2.1 = br + (1 + m + (contAll TxOut.fromStream (·.status) outs s).2.1) := by omega
    rw [e1]
    refine outs_cont hh hall hins t br (o :: r) hst hv hf hn hi _ _ _ _ (by rw [contAll_length, hl]) hlock ?_ hlen
    unfold PassRes
    cases e : readMany readOut o.toNat r with
    | more =>
      rw [e] at hP
      obtain ⟨h1, rfl, rfl⟩ := hP
      rw [contAll_idle _ _ fun x hx => ⟨seqMid_notStopped TxOut.feeds _ _ h1 x hx, fun h => by simp at h⟩]
      exact ⟨rfl, h1, by simp; omega, rfl⟩
    | ok ys r' =>
      rw [e] at hP
      obtain ⟨h1, h2, rfl⟩ := hP
      rw [contAll_idle _ _ fun x hx => by rw [seqDone_none _ _ h1 x hx]; exact ⟨not_stopped_done, fun _ => by simp⟩]
      exact ⟨rfl, h1, by simp; omega, rfl⟩
    | bad =>
      rw [e] at hP
      obtain ⟨⟨pre, x, post, k1, k2, k3⟩, k4, _⟩ := hP
      have hcl := contLoop_stopped (f := TxOut.fromStream) (st := (·.status)) s pre x post k2 k3
      rw [← k1] at hcl
      obtain ⟨st, g1, g2, g3⟩ := contAll_bad (f := TxOut.fromStream) (st := (·.status)) outs s (by rw [hcl])
      refine ⟨st, g1, g2, fun hu => ?_⟩
      obtain ⟨y, hy1, hy2⟩ := g3 hu
      rw [hcl] at hy1
      exact k4 y hy1 hy2

theorem outs_resume (hh : Hdr hdr sw n v) (r0 c' : Bytes) (hall : pc = hdr ++ q) (hins : readMany readIn n q = .ok is (o :: (r0 ++ c')))
    (t : Tx) (br : Nat) (hst : t.status = .incomplete) (hv : t.version.toNat = v) (hf : t.segwitFlag = if sw then 1 else 0) (hn : t.txIns.length = n)
    (hi : insDone t.txIns is) (ho : outsMid t.txOuts r0) (hol : t.txOuts.length = o.toNat) (hlock : t.locktime = 0)
    (hlen : br + t.bytesParsed + c'.length = pc.length) :
    Out (t.readOuts br (.of c')) t.bytesParsed pc := by
  have hoff := outOffset_done hh t hf hins (hi.imp fun _ _ h => h.2.1)
  rw [← hall, List.length_cons, List.length_append] at hoff
  have hcount : t.readOutCount br (.of c') = (t, br, .of c') := by
    unfold readOutCount
    rw [if_neg (by omega)]
  rw [readOuts_eq t br _ _ _ _ hcount _ rfl]
  have hC := contLoop_spec TxOut.feeds t.txOuts r0 c' ho
  unfold FedMany at hC
  rw [contLoop_length, hol] at hC
  refine outs_cont hh hall hins t br c' hst hv hf hn hi _ _ _ _ (by rw [contAll_length, hol]) hlock ?_ hlen
  unfold PassRes
  cases e : readMany readOut o.toNat (r0 ++ c') with
  | more =>
    rw [e] at hC
    obtain ⟨h1, h2, h3, h4⟩ := hC
    rw [contAll_good _ _ h1 (seqMid_notStopped TxOut.feeds _ _ h2)]
    exact ⟨rfl, h2, h3, h4⟩
  | ok ys r' =>
    rw [e] at hC
    obtain ⟨h1, h2, h3, h4⟩ := hC
    rw [contAll_good _ _ h1 (fun x hx => by rw [seqDone_none _ _ h2 x hx]; exact not_stopped_done)]
    exact ⟨rfl, h2, h3, h4⟩
  | bad =>
    rw [e] at hC
    obtain ⟨st, g1, g2, g3⟩ := contAll_bad _ _ hC.1
    refine ⟨st, g1, g2, fun hu => ?_⟩
    obtain ⟨y, hy1, hy2⟩ := g3 hu
    exact hC.2.1 y hy1 hy2

theorem outs_parsed (h : Ctx pc hdr sw n v q is o r os r2) (t : Tx) (br : Nat) (c' l : Bytes) (hst : t.status = .incomplete)
    (hv : t.version.toNat = v) (hf : t.segwitFlag = if sw then 1 else 0) (hn : t.txIns.length = n) (hp : t.Parsed sw n is os r2 (l ++ c'))
    (hlen : br + t.bytesParsed + c'.length = pc.length) (hl : l.length < 4) (hlock : t.locktime.toNat = leValue l) :
    Out (t.readOuts br (.of c')) t.bytesParsed pc := by
  have h1 := h.lockOffset t hf _ hp
  rw [List.length_append] at h1
  have h2 : t.outOffset < t.lockOffset := by unfold Tx.lockOffset Tx.witOffset; omega
  have hcount : t.readOutCount br (.of c') = (t, br, .of c') := by
    unfold readOutCount
    rw [if_neg (by omega)]
  rw [readOuts_eq t br _ _ _ _ hcount _ (contAll_idle _ _ fun x hx => by
    rw [forall₂_left hp.1 (P := fun a => a.status = .done) (fun _ _ h => h.1) x hx]; exact ⟨not_stopped_done, fun _ => by simp⟩)]
  exact wits_resume h t br c' l hst hv hf hn hp hlen hl hlock

/-! #### Inputs -/

theorem readIns_go (t : Tx) (br : Nat) (s s1 : PStream) (ins : List TxIn) (m : Nat) (h : contAll TxIn.fromStream (·.status) t.txIns s = (ins, m, s1, none)) :
    t.readIns br s = ({ t with txIns := ins } : Tx).readOuts (br + m) s1 := by
  unfold readIns
  rw [h]

theorem readIns_stop (t : Tx) (br : Nat) (s : PStream) (e : Status) (h : (contAll TxIn.fromStream (·.status) t.txIns s).2.2.2 = some e) :
    (t.readIns br s).1.status = e := by
  unfold readIns
  generalize contAll TxIn.fromStream (·.status) t.txIns s = z at h
  obtain ⟨a', b', c', d'⟩ := z
  simp only at h ⊢
  subst h
  rfl

/-- Inputs partly read, or none of them. -/
theorem ins_resume (hh : Hdr hdr sw n v) (q0 c' : Bytes) (hall : pc = hdr ++ (q0 ++ c'))
    (t : Tx) (br : Nat) (hst : t.status = .incomplete) (hv : t.version.toNat = v) (hf : t.segwitFlag = if sw then 1 else 0) (hn : t.txIns.length = n)
    (hi : insMid t.txIns q0) (ho : t.txOuts = []) (hlock : t.locktime = 0) (hlen : br + t.bytesParsed + c'.length = pc.length) :
    Out (t.readIns br (.of c')) t.bytesParsed pc := by
  have hC := contLoop_spec TxIn.feeds t.txIns q0 c' hi
  have hrd := hh.readTx (q0 ++ c')
  unfold readAfterCount at hrd
  rw [← hall] at hrd
  unfold FedMany at hC
  have hL := contLoop_length (f := TxIn.fromStream) (st := (·.status)) t.txIns (.of c')
  rw [hL, hn] at hC
  rw [hn] at hL
  cases e : readMany readIn n (q0 ++ c') with
  | more =>
    rw [e] at hC hrd
    obtain ⟨h1, h2, h3, h4⟩ := hC
    rw [readIns_go t br _ _ _ _ (contAll_good _ _ h1 (seqMid_notStopped TxIn.feeds _ _ h2))]
    generalize contLoop TxIn.fromStream (·.status) t.txIns (.of c') = z at *
    obtain ⟨ins, m, s1, b⟩ := z
    simp only at h1 h2 h3 h4 hL ⊢
    subst h3 h4
    have hsum := seqMid_ins _ _ h2
    have hw0 : ∀ (xs : List TxIn) (qq : Bytes), insMid xs qq → ∀ a ∈ xs, a.witness = {} := by
      intro xs
      induction xs with
      | nil => intro _ _ a ha; cases ha
      | cons x xs ih =>
        intro qq hs a ha
        rcases hs with ⟨_, g2, g3⟩ | ⟨d, rr, _, _, g3, g4⟩
        · rcases List.mem_cons.mp ha with rfl | ha
          · exact g2.2
          · exact (g3 a ha).2
        · rcases List.mem_cons.mp ha with rfl | ha
          · exact g3.2
          · exact ih rr g4 a ha
    have hpos : br + c'.length + t.bytesParsed < ({ t with txIns := ins } : Tx).witOffset := by
      unfold Tx.witOffset outOffset
      rw [hall, List.length_append, hh.length] at hlen
      simp only [hf]
      omega
    have hwl : ({ t with txIns := ins } : Tx).witOffset ≤ ({ t with txIns := ins } : Tx).lockOffset := by unfold Tx.lockOffset; omega
    rw [outs_idle { t with txIns := ins } (br + c'.length) hst (by simp only; rw [ho]; simp) (fresh_not_stopped (hw0 _ _ h2)) (fun _ => by simp only; omega) (by simp only; omega)]
    have hver := hh.version (q0 ++ c')
    refine mid_out { t with txIns := ins } (br + c'.length) ?_ (by simp only; omega) hrd
    have hbp : t.bytesParsed + (br + c'.length) = pc.length := by omega
    exact ⟨hst, hbp, by rw [hall, hver]; exact hv, Or.inr ⟨hdr, sw, n, q0 ++ c', by rw [hall, hver]; exact hh, hall, hf, hL, Or.inl ⟨e, h2, ho, hlock⟩⟩⟩
  | ok ys r' =>
    rw [e] at hC
    obtain ⟨h1, h2, h3, h4⟩ := hC
    rw [readIns_go t br _ _ _ _ (contAll_good _ _ h1 (fun x hx => by rw [seqDone_none _ _ h2 x hx]; exact not_stopped_done)), h4]
    exact outs_fresh hh hall r' e { t with txIns := _ } _ hst hv hf hL h2 ho hlock (by simp only; omega)
  | bad =>
    rw [e] at hC hrd
    obtain ⟨st, g1, g2, g3⟩ := contAll_bad _ _ hC.1
    unfold Out
    rw [hrd]
    simp only
    rw [readIns_stop t br _ st g1]
    refine ⟨g2, fun hu => ?_⟩
    obtain ⟨y, hy1, hy2⟩ := g3 hu
    exact (hC.2.1 y hy1 hy2).mono (by rw [hall]; exact (List.suffix_append _ _).isInfix)

theorem ins_idle_done (t : Tx) (br : Nat) (s : PStream) (h : ∀ a ∈ t.txIns, a.status = .done) : t.readIns br s = t.readOuts br s := by
  rw [readIns_go t br s s t.txIns 0 (contAll_idle _ _ fun x hx => by rw [h x hx]; exact ⟨not_stopped_done, fun _ => by simp⟩)]
  rfl

/-- The first pass over the inputs. -/
theorem ins_first (hh : Hdr hdr sw n v) (c' : Bytes) (hall : pc = hdr ++ c')
    (t : Tx) (br : Nat) (hst : t.status = .incomplete) (hv : t.version.toNat = v) (hf : t.segwitFlag = if sw then 1 else 0)
    (ho : t.txOuts = []) (hlock : t.locktime = 0) (hlen : br + t.bytesParsed + c'.length = pc.length) :
    Out (({ t with txIns := (parseAll TxIn.fromStream (List.replicate n {}) (.of c')).1 } : Tx).readIns
      (br + (parseAll TxIn.fromStream (List.replicate n {}) (.of c')).2.1) (parseAll TxIn.fromStream (List.replicate n {}) (.of c')).2.2) t.bytesParsed pc := by
  have hP := parseAll_spec TxIn.feeds (List.replicate n {}) c' (fun a ha => by rw [List.eq_of_mem_replicate ha]; exact TxIn.fresh)
  rw [List.length_replicate] at hP
  generalize parseAll TxIn.fromStream (List.replicate n {}) (.of c') = y at hP
  obtain ⟨ins, m, s⟩ := y
  simp only at hP ⊢
  obtain ⟨hl, hP⟩ := hP
  cases e : readMany readIn n c' with
  | more =>
    rw [e] at hP
    obtain ⟨h1, rfl, rfl⟩ := hP
    exact ins_resume hh c' [] (by rw [List.append_nil]; exact hall) { t with txIns := ins } _ hst hv hf hl h1 ho hlock (by simp only [List.length_nil]; omega)
  | ok ys r' =>
    rw [e] at hP
    obtain ⟨h1, h2, rfl⟩ := hP
    rw [ins_idle_done _ _ _ (seqDone_none _ _ h1)]
    exact outs_fresh hh hall r' e { t with txIns := ins } _ hst hv hf hl h1 ho hlock (by simp only; omega)
  | bad =>
    rw [e] at hP
    obtain ⟨⟨pre, x, post, k1, k2, k3⟩, k4, _⟩ := hP
    have hcl := contLoop_stopped (f := TxIn.fromStream) (st := (·.status)) s pre x post k2 k3
    rw [← k1] at hcl
    obtain ⟨st, g1, g2, g3⟩ := contAll_bad (f := TxIn.fromStream) (st := (·.status)) ins s (by rw [hcl])
    have hrd := hh.readTx c'
    unfold readAfterCount at hrd
    rw [← hall, e] at hrd
    unfold Out
    rw [hrd]
    simp only
    rw [readIns_stop { t with txIns := ins } _ _ st g1]
    refine ⟨g2, fun hu => ?_⟩
    obtain ⟨y, hy1, hy2⟩ := g3 hu
    rw [hcl] at hy1
    exact (k4 y hy1 hy2).mono (by rw [hall]; exact (List.suffix_append _ _).isInfix)

/-! #### Header -/

/-- Nothing parsed behind the header, which is not complete. -/
theorem head_idle (t : Tx) (br : Nat) (hst : t.status = .incomplete) (hi : t.txIns = []) (ho : t.txOuts = []) (hlt : br + t.bytesParsed < 6 + 2 * t.segwitFlag) :
    t.readIns br (.of []) = ({ t with bytesParsed := t.bytesParsed + br }, br, .of []) := by
  have h1 : t.witOffset = 6 + 2 * t.segwitFlag := by unfold Tx.witOffset outOffset; rw [hi, ho]; simp; omega
  have h2 : t.witOffset ≤ t.lockOffset := by unfold Tx.lockOffset; omega
  exact ins_idle t br hst (by rw [hi]; simp) (by rw [ho]; simp) (by rw [hi]; simp) (by omega) (by omega)

/-- Marker and flag read. -/
theorem head_count (t : Tx) (br : Nat) (vb c : Bytes) (hvb : vb.length = 4) (hpc : pc = vb ++ [0, 1] ++ c) (hst : t.status = .incomplete)
    (hv : t.version.toNat = leValue vb) (hf : t.segwitFlag = 1) (hi : t.txIns = []) (ho : t.txOuts = []) (hlock : t.locktime = 0)
    (hpos : br + t.bytesParsed = 6) :
    Out ((t.readSegwitCount br (.of c)).1.readIns (t.readSegwitCount br (.of c)).2.1 (t.readSegwitCount br (.of c)).2.2) t.bytesParsed pc := by
  have htake : pc.take 4 = vb := by
    rw [hpc, List.append_assoc, List.take_append_of_le_length (by omega), List.take_of_length_le (by omega)]
  have hdrop : pc.drop 4 = 0 :: 1 :: c := by
    rw [hpc, List.append_assoc, List.drop_append_of_le_length (by omega), List.drop_of_length_le (by omega)]; rfl
  cases c with
  | nil =>
    have e : t.readSegwitCount br (.of []) = (t, br, .of []) := by unfold readSegwitCount; rw [if_neg (by simp)]
    rw [e]
    simp only
    rw [head_idle t br hst hi ho (by omega)]
    have hpl : pc.length = 6 := by rw [hpc]; simp [hvb]
    refine mid_out t br ⟨hst, by simp only; omega, by rw [htake]; exact hv, Or.inl ⟨Or.inr ⟨vb, hvb, Or.inr (by rw [hpc]; simp), hf⟩, hi, ho, hlock⟩⟩ (by omega) ?_
    unfold Spec.readTx
    rw [if_neg (by omega), hdrop]
    simp
  | cons k c =>
    have e : t.readSegwitCount br (.of (k :: c)) = ({ t with txIns := (parseAll TxIn.fromStream (List.replicate k.toNat {}) (.of c)).1 },
        br + 1 + (parseAll TxIn.fromStream (List.replicate k.toNat {}) (.of c)).2.1, (parseAll TxIn.fromStream (List.replicate k.toNat {}) (.of c)).2.2) := by
      unfold readSegwitCount
      rw [if_pos ⟨rfl, by omega, hpos⟩]
      rfl
    rw [e]
    have hh : Hdr (vb ++ [0, 1, k]) true k.toNat (leValue vb) := ⟨vb, hvb, rfl, k.toNat_lt, Or.inr ⟨rfl, by simp⟩⟩
    exact ins_first hh c (by rw [hpc]; simp) t (br + 1) hst hv (by rw [hf]; rfl) ho hlock (by rw [hpc]; simp [hvb]; omega)

/-- Marker read. -/
theorem head_flag (t : Tx) (br : Nat) (vb c : Bytes) (hvb : vb.length = 4) (hpc : pc = vb ++ [0] ++ c) (hst : t.status = .incomplete)
    (hv : t.version.toNat = leValue vb) (hf : t.segwitFlag = 1) (hi : t.txIns = []) (ho : t.txOuts = []) (hlock : t.locktime = 0)
    (hpos : br + t.bytesParsed = 5) (R : Tx × Nat × PStream)
    (hR : R = if (t.readFlag br (.of c)).1 then
        (t.readSegwitCount (t.readFlag br (.of c)).2.1 (t.readFlag br (.of c)).2.2).1.readIns
          (t.readSegwitCount (t.readFlag br (.of c)).2.1 (t.readFlag br (.of c)).2.2).2.1
          (t.readSegwitCount (t.readFlag br (.of c)).2.1 (t.readFlag br (.of c)).2.2).2.2
      else t.finish .failed (t.readFlag br (.of c)).2.1 (t.readFlag br (.of c)).2.2) :
    Out R t.bytesParsed pc := by
  have htake : pc.take 4 = vb := by
    rw [hpc, List.append_assoc, List.take_append_of_le_length (by omega), List.take_of_length_le (by omega)]
  have hdrop : pc.drop 4 = 0 :: c := by
    rw [hpc, List.append_assoc, List.drop_append_of_le_length (by omega), List.drop_of_length_le (by omega)]; rfl
  have hpl : 5 ≤ pc.length := by rw [hpc]; simp [hvb]; omega
  rw [hR]
  cases c with
  | nil =>
    have e : t.readFlag br (.of []) = (true, br, .of []) := by unfold readFlag; rw [if_neg (by simp)]
    have e2 : t.readSegwitCount br (.of []) = (t, br, .of []) := by unfold readSegwitCount; rw [if_neg (by simp)]
    rw [e, if_pos rfl]
    simp only
    rw [e2]
    simp only
    rw [head_idle t br hst hi ho (by omega)]
    have hpl : pc.length = 5 := by rw [hpc]; simp [hvb]
    refine mid_out t br ⟨hst, by simp only; omega, by rw [htake]; exact hv, Or.inl ⟨Or.inr ⟨vb, hvb, Or.inl (by rw [hpc]; simp), hf⟩, hi, ho, hlock⟩⟩ (by omega) ?_
    unfold Spec.readTx
    rw [if_neg (by omega), hdrop]
    simp
  | cons k c =>
    have e : t.readFlag br (.of (k :: c)) = (decide (k = 1), br + 1, .of c) := by
      unfold readFlag
      rw [if_pos ⟨rfl, by omega, hpos⟩]
      rfl
    rw [e]
    simp only
    by_cases hk : k = 1
    · subst hk
      rw [if_pos (by simp)]
      exact head_count t (br + 1) vb c hvb (by rw [hpc]; simp) hst hv hf hi ho hlock (by omega)
    · rw [if_neg (by simpa using hk)]
      have hrd : Spec.readTx pc = .bad := by
        unfold Spec.readTx
        rw [if_neg (by omega), hdrop]
        simp [hk]
      unfold Out
      rw [hrd]
      exact ⟨Or.inl rfl, by simp [finish]⟩

theorem fromStream_eq (t : Tx) (s : PStream) (h : ¬ t.status.Stopped) : t.fromStream s =
    (let R := t.start.readVersion s
     let F := R.1.readFlag R.2.1 R.2.2
     if F.1 then (R.1.readSegwitCount F.2.1 F.2.2).1.readIns (R.1.readSegwitCount F.2.1 F.2.2).2.1 (R.1.readSegwitCount F.2.1 F.2.2).2.2
     else R.1.finish .failed F.2.1 F.2.2) := by
  unfold fromStream
  rw [if_neg (show ¬ (t.status = .failed ∨ t.status = .ub) from h)]

/-- Up to the version has been read. -/
theorem head_version (t : Tx) (p c : Bytes) (hp : p.length ≤ 4) (hst : t.status = .incomplete) (hbp : t.bytesParsed = p.length)
    (hv : t.version.toNat = leValue p) (hf : t.segwitFlag = 0) (hi : t.txIns = []) (ho : t.txOuts = []) (hlock : t.locktime = 0)
    (R : Tx × Nat × PStream) (hR : R = t.readVersion (.of c)) :
    Out (if (R.1.readFlag R.2.1 R.2.2).1 then
        (R.1.readSegwitCount (R.1.readFlag R.2.1 R.2.2).2.1 (R.1.readFlag R.2.1 R.2.2).2.2).1.readIns
          (R.1.readSegwitCount (R.1.readFlag R.2.1 R.2.2).2.1 (R.1.readFlag R.2.1 R.2.2).2.2).2.1
          (R.1.readSegwitCount (R.1.readFlag R.2.1 R.2.2).2.1 (R.1.readFlag R.2.1 R.2.2).2.2).2.2
      else R.1.finish .failed (R.1.readFlag R.2.1 R.2.2).2.1 (R.1.readFlag R.2.1 R.2.2).2.2) t.bytesParsed (p ++ c) := by
  have hacc := accLE_spec (c.take (4 - t.bytesParsed)) p t.version hv (by rw [List.length_take]; omega)
  rw [← hbp] at hacc
  unfold readVersion at hR
  simp only [PStream.readN_of] at hR
  generalize accLE t.version t.bytesParsed (c.take (4 - t.bytesParsed)) = ver at hacc hR
  by_cases hs : (p ++ c).length ≤ 4
  · have hs' := hs
    rw [List.length_append] at hs'
    have et : c.take (4 - t.bytesParsed) = c := List.take_of_length_le (by omega)
    have ed : c.drop (4 - t.bytesParsed) = [] := List.drop_of_length_le (by omega)
    rw [et, ed] at hR
    rw [et] at hacc
    rw [if_neg (by simp)] at hR
    subst hR
    have e1 : ({ t with version := ver } : Tx).readFlag c.length (.of []) = (true, c.length, .of []) := by
      unfold readFlag; rw [if_neg (by simp)]
    have e2 : ({ t with version := ver } : Tx).readSegwitCount c.length (.of []) =
        ({ t with version := ver }, c.length, .of []) := by
      unfold readSegwitCount; rw [if_neg (by simp)]
    simp only
    rw [e1]
    simp only
    rw [e2]
    simp only [if_true]
    rw [head_idle { t with version := ver } c.length hst hi ho (by simp only; omega)]
    refine mid_out { t with version := ver } c.length ⟨hst, by simp only; rw [List.length_append]; omega, ?_,
      Or.inl ⟨Or.inl ⟨hs, hf⟩, hi, ho, hlock⟩⟩ (by simp only; rw [List.length_append]; omega) ?_
    · rw [List.take_of_length_le hs]; exact hacc
    · unfold Spec.readTx
      split_ifs with h4
      · rfl
      · rw [List.drop_of_length_le hs]
  · have hs' := hs
    rw [List.length_append] at hs'
    have hl4 : (c.take (4 - t.bytesParsed)).length = 4 - t.bytesParsed := by rw [List.length_take]; omega
    obtain ⟨k, c', hc'⟩ : ∃ k c', c.drop (4 - t.bytesParsed) = k :: c' := by
      cases h : c.drop (4 - t.bytesParsed) with
      | nil =>
        have := congrArg List.length h
        rw [List.length_drop, List.length_nil] at this
        omega
      | cons k c' => exact ⟨k, c', rfl⟩
    have hpc : p ++ c = (p ++ c.take (4 - t.bytesParsed)) ++ k :: c' := by
      rw [List.append_assoc, ← hc', List.take_append_drop]
    have hvb : (p ++ c.take (4 - t.bytesParsed)).length = 4 := by rw [List.length_append]; omega
    generalize p ++ c.take (4 - t.bytesParsed) = vb at *
    rw [hc', hl4, if_pos ⟨rfl, by omega⟩] at hR
    have hlen : (p ++ c).length = 5 + c'.length := by rw [hpc, List.length_append, hvb, List.length_cons]; omega
    by_cases hk : k = 0
    · subst hk
      have hR2 : R = ({ t with version := ver, segwitFlag := 1 }, 4 - t.bytesParsed + 1, .of c') := by
        rw [hR]; exact if_pos rfl
      subst hR2
      exact head_flag { t with version := ver, segwitFlag := 1 } (4 - t.bytesParsed + 1) vb c' hvb (by rw [hpc]; simp) hst hacc rfl hi ho hlock (by simp only; omega) _ rfl
    · have hR2 : R = ({ t with version := ver, txIns := (parseAll TxIn.fromStream (List.replicate k.toNat {}) (.of c')).1 },
          4 - t.bytesParsed + 1 + (parseAll TxIn.fromStream (List.replicate k.toNat {}) (.of c')).2.1, (parseAll TxIn.fromStream (List.replicate k.toNat {}) (.of c')).2.2) := by
        rw [hR]
        have : (PStream.of (k :: c')).readByte = (k, .of c') := rfl
        rw [this]
        simp only
        rw [if_neg hk]
      subst hR2
      have h0 : ({ t with version := ver } : Tx).segwitFlag = 0 := hf
      have e1 : ∀ ins br s, ({ t with version := ver, txIns := ins } : Tx).readFlag br s = (true, br, s) := by
        intro ins br s; unfold readFlag; rw [if_neg (by simp only; omega)]
      have e2 : ∀ ins br s, ({ t with version := ver, txIns := ins } : Tx).readSegwitCount br s = ({ t with version := ver, txIns := ins }, br, s) := by
        intro ins br s; unfold readSegwitCount; rw [if_neg (by simp only; omega)]
      simp only
      rw [e1]
      simp only
      rw [e2]
      simp only [if_true]
      have hk' : k.toNat ≠ 0 := by intro h; apply hk; exact UInt8.toNat_inj.mp h
      have hh : Hdr (vb ++ [k]) false k.toNat (leValue vb) := ⟨vb, hvb, rfl, k.toNat_lt, Or.inl ⟨rfl, hk', by simp⟩⟩
      exact ins_first hh c' (by rw [hpc]; simp) { t with version := ver } (4 - t.bytesParsed + 1) hst hacc (by simp only; rw [hf]; rfl) ho hlock (by simp only; omega)

/-- Adding bytes does not change what was read. -/
theorem readMany_mono {β : Type} {f : Bytes → Outcome β} {ser : β → Bytes} {P : β → Prop} (cd : Codec f ser P) {n : Nat} {q r : Bytes} {xs : List β} (c : Bytes)
    (h : readMany f n q = .ok xs r) : readMany f n (q ++ c) = .ok xs (r ++ c) := by
  obtain ⟨h1, h2⟩ := (codecMany cd n).sound _ _ _ h
  rw [h1, List.append_assoc]
  exact (codecMany cd n).complete _ _ h2

/-- Finished or fresh, or in the middle. -/
def Ready (t : Tx) (p : Bytes) : Prop := (t.status = .done ∧ p = []) ∨ t.Mid p

theorem Parsed.mono {t : Tx} {l : Bytes} (c : Bytes) (h : t.Parsed sw n is os r2 l) : t.Parsed sw n is os (r2 ++ c) (l ++ c) := by
  refine ⟨h.1, h.2.1, ?_⟩
  rcases h.2.2 with ⟨h1, h2, rfl⟩ | ⟨h1, ws, h2, h3⟩
  · exact Or.inl ⟨h1, h2, rfl⟩
  · exact Or.inr ⟨h1, ws, readMany_mono codecWitness c h2, h3⟩

theorem feed (t : Tx) (p c : Bytes) (h : t.Ready p) : Out (t.fromStream (.of c)) p.length (p ++ c) := by
  rcases h with ⟨hd, rfl⟩ | h
  · rw [fromStream_eq t _ (by rw [hd]; exact not_stopped_done)]
    have hs : t.start = { t with status := .incomplete, txIns := [], txOuts := [], bytesParsed := 0, version := 0, locktime := 0, segwitFlag := 0 } := by
      unfold start; rw [if_pos hd]
    have hb0 : t.start.bytesParsed = 0 := by rw [hs]
    rw [List.length_nil, List.nil_append, ← hb0]
    exact head_version t.start [] c (by simp) (by rw [hs]) (by rw [hs]; rfl) (by rw [hs]; rfl) (by rw [hs]) (by rw [hs]) (by rw [hs]) (by rw [hs]) _ rfl
  · rw [fromStream_eq t _ (by rw [h.status]; exact not_stopped_incomplete)]
    have hs : t.start = t := by
      unfold start
      rw [if_neg (by rw [h.status]; simp)]
      have := h.status
      cases t; simp_all
    rw [hs, ← h.parsed]
    have hpl := h.parsed
    have hver := h.version
    have idleV : ∀ (h5 : 5 ≤ t.bytesParsed), t.readVersion (.of c) = (t, 0, .of c) := by
      intro h5
      unfold readVersion
      have : 4 - t.bytesParsed = 0 := by omega
      simp only [PStream.readN_of, this, List.take_zero, List.drop_zero, List.length_nil, accLE]
      rw [if_neg (by omega)]
    rcases h.shape with ⟨⟨hp4, hf⟩ | ⟨vb, hvb, hp, hf⟩, hi, ho, hl⟩ | ⟨hdr, sw, n, q, hh, hp, hf, hn, hb⟩
    · rw [List.take_of_length_le hp4] at hver
      exact head_version t p c hp4 h.status h.parsed hver hf hi ho hl _ rfl
    · have hvt : p.take 4 = vb := by
        rcases hp with rfl | rfl <;> rw [List.take_append_of_le_length (by omega), List.take_of_length_le (by omega)]
      rw [hvt] at hver
      rcases hp with rfl | rfl
      · rw [List.length_append, hvb, List.length_singleton] at hpl
        rw [idleV (by omega)]
        exact head_flag t 0 vb c hvb rfl h.status hver hf hi ho hl (by omega) _ rfl
      · rw [List.length_append, hvb] at hpl
        simp only [List.length_cons, List.length_nil] at hpl
        rw [idleV (by omega)]
        have e1 : t.readFlag 0 (.of c) = (true, 0, .of c) := by unfold readFlag; rw [if_neg (by omega)]
        simp only
        rw [e1]
        simp only [if_true]
        exact head_count t 0 vb c hvb rfl h.status hver hf hi ho hl (by omega)
    · have hlen := hh.length
      rw [hp, List.length_append, hlen] at hpl
      rw [idleV (by omega)]
      have e1 : t.readFlag 0 (.of c) = (true, 0, .of c) := by
        unfold readFlag
        rw [if_neg]
        rintro ⟨_, h1, h2⟩
        rw [hf] at h1
        cases sw <;> simp at h1 hpl
        omega
      have e2 : t.readSegwitCount 0 (.of c) = (t, 0, .of c) := by
        unfold readSegwitCount
        rw [if_neg]
        rintro ⟨_, h1, h2⟩
        rw [hf] at h1
        cases sw <;> simp at h1 hpl
        omega
      simp only
      rw [e1]
      simp only [if_true]
      rw [e2]
      simp only
      have hall : p ++ c = hdr ++ (q ++ c) := by rw [hp, List.append_assoc]
      have hlen2 : 0 + t.bytesParsed + c.length = (p ++ c).length := by rw [List.length_append, h.parsed]; omega
      rcases hb with ⟨b1, b2, b3, b4⟩ | ⟨is, b1, b2, b3, b4⟩ | ⟨is, o, r, b1, b2, b3, b4, b5, b6, _⟩ | ⟨is, o, r, os, r2, l, b1, b2, b3, b4, b5⟩
      · exact ins_resume hh q c hall t 0 h.status hver hf hn b2 b3 b4 hlen2
      · rw [ins_idle_done t 0 _ (seqDone_none _ _ b2)]
        exact outs_fresh hh hall c (by rw [readMany_mono codecIn c b1]; rfl) t 0 h.status hver hf hn b2 b3 b4 hlen2
      · rw [ins_idle_done t 0 _ (seqDone_none _ _ b2)]
        exact outs_resume hh r c hall (by rw [readMany_mono codecIn c b1]; rfl) t 0 h.status hver hf hn b2 b5 b3 b6 hlen2
      · rw [ins_idle_done t 0 _ (forall₂_left b3.2.1 fun _ _ h => h.1)]
        exact outs_parsed ⟨hh, hall, by rw [readMany_mono codecIn c b1]; rfl, readMany_mono codecOut c b2⟩ t 0 c l h.status hver hf hn (b3.mono c) hlen2 b4 b5

end Tx

end UB
