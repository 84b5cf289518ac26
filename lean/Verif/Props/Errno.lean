import Verif.Model.Errno
import Verif.Props.PSBTLimits

/-
C100: `ubtc_errno` after parsing.
-/

namespace UB
open Spec

namespace Errno

/-! ### Lists of parts -/

/-- Parsing a part writes `code` if it fails, and nothing otherwise. -/
structure Tells {α : Type} (f : α → PStream → α × Nat × PStream) (st : α → Status) (w : α → PStream → List Nat) (code : Nat) : Prop where
  bad : ∀ x s, st x ≠ .failed → st (f x s).1 = .failed → w x s = [code]
  good : ∀ x s, st (f x s).1 ≠ .failed → w x s = []
  stay : ∀ x s, st x = .failed → w x s = [] ∧ st (f x s).1 = .failed

theorem Tells.only {α : Type} {f : α → PStream → α × Nat × PStream} {st : α → Status} {w : α → PStream → List Nat} {code : Nat} (h : Tells f st w code) (x : α) (s : PStream) :
    ∀ e ∈ w x s, e = code := by
  intro e he
  by_cases h1 : st x = .failed
  · rw [(h.stay x s h1).1] at he; simp at he
  · by_cases h2 : st (f x s).1 = .failed
    · rw [h.bad x s h1 h2] at he; simpa using he
    · rw [h.good x s h2] at he; simp at he

variable {α : Type} {f : α → PStream → α × Nat × PStream} {st : α → Status} {w : α → PStream → List Nat} {code : Nat}

theorem parseAll_tells (h : Tells f st w code) : ∀ (xs : List α) (s : PStream), (∀ x ∈ xs, st x ≠ .failed) →
    (∀ e ∈ parseAll f w xs s, e = code) ∧ (parseAll f w xs s = [] ↔ ∀ y ∈ (Tx.parseAll f xs s).1, st y ≠ .failed)
  | [], s, _ => by simp [parseAll, Tx.parseAll]
  | x :: xs, s, hx => by
    obtain ⟨i1, i2⟩ := parseAll_tells h xs (f x s).2.2 (fun y hy => hx y (List.mem_cons_of_mem _ hy))
    have hx' := hx x List.mem_cons_self
    have e : (Tx.parseAll f (x :: xs) s).1 = (f x s).1 :: (Tx.parseAll f xs (f x s).2.2).1 := rfl
    refine ⟨?_, ?_⟩
    · intro e he
      rw [parseAll, List.mem_append] at he
      rcases he with he | he
      · exact h.only x s e he
      · exact i1 e he
    · rw [parseAll, List.append_eq_nil_iff, i2, e, List.forall_mem_cons]
      refine and_congr_left fun _ => ⟨fun hw hf => ?_, fun hf => h.good x s hf⟩
      rw [h.bad x s hx' hf] at hw
      cases hw

/-- One round of the loop. -/
def step (f : α → PStream → α × Nat × PStream) (st : α → Status) (x : α) (s : PStream) : α × Nat × PStream :=
  if s.avail ∧ st x = .incomplete then f x s else (x, 0, s)

theorem contLoop_cons (x : α) (xs : List α) (s : PStream) : Tx.contLoop f st (x :: xs) s =
    if st (step f st x s).1 = .failed ∨ st (step f st x s).1 = .ub then ((step f st x s).1 :: xs, (step f st x s).2.1, (step f st x s).2.2, false)
    else ((step f st x s).1 :: (Tx.contLoop f st xs (step f st x s).2.2).1, (step f st x s).2.1 + (Tx.contLoop f st xs (step f st x s).2.2).2.1,
      (Tx.contLoop f st xs (step f st x s).2.2).2.2.1, (Tx.contLoop f st xs (step f st x s).2.2).2.2.2) := rfl

theorem cont_cons (own : List Nat) (x : α) (xs : List α) (s : PStream) : contLoop f st w own (x :: xs) s =
    if st (step f st x s).1 = .failed then (if s.avail ∧ st x = .incomplete then w x s else []) ++ own
    else if st (step f st x s).1 = .ub then (if s.avail ∧ st x = .incomplete then w x s else [])
    else (if s.avail ∧ st x = .incomplete then w x s else []) ++ contLoop f st w own xs (step f st x s).2.2 := rfl

theorem step_writes (h : Tells f st w code) (x : α) (s : PStream) :
    (∀ e ∈ (if s.avail ∧ st x = .incomplete then w x s else []), e = code) ∧ (st x = .failed → st (step f st x s).1 = .failed) ∧
    (st (step f st x s).1 ≠ .failed → (if s.avail ∧ st x = .incomplete then w x s else []) = []) ∧
    (st x ≠ .failed → st (step f st x s).1 = .failed → (if s.avail ∧ st x = .incomplete then w x s else []) = [code]) := by
  unfold step
  by_cases hc : s.avail ∧ st x = .incomplete
  · rw [if_pos hc, if_pos hc]
    refine ⟨h.only x s, fun he => ?_, h.good x s, h.bad x s⟩
    rw [hc.2] at he
    cases he
  · rw [if_neg hc, if_neg hc]
    exact ⟨by simp, id, fun _ => rfl, fun h1 h2 => absurd h2 h1⟩

/-- The loop over parts that write for themselves. -/
theorem contLoop_tells (h : Tells f st w code) : ∀ (xs : List α) (s : PStream),
    (∀ e ∈ contLoop f st w [] xs s, e = code) ∧
    ((∃ x ∈ xs, st x = .failed) → ∃ y ∈ (Tx.contLoop f st xs s).1, st y = .failed) ∧
    ((∀ y ∈ (Tx.contLoop f st xs s).1, st y ≠ .failed) → contLoop f st w [] xs s = []) ∧
    ((∀ x ∈ xs, st x ≠ .failed) → contLoop f st w [] xs s = [] → ∀ y ∈ (Tx.contLoop f st xs s).1, st y ≠ .failed) ∧
    ((Tx.contLoop f st xs s).2.2.2 = true → ∀ y ∈ (Tx.contLoop f st xs s).1, st y ≠ .failed) ∧
    ((Tx.contLoop f st xs s).2.2.2 = false → ∃ y ∈ (Tx.contLoop f st xs s).1, st y = .failed ∨ st y = .ub)
  | [], s => by simp [contLoop, Tx.contLoop]
  | x :: xs, s => by
    obtain ⟨s1, s2, s3, s4⟩ := step_writes h x s
    obtain ⟨i1, i2, i3, i4, i5, i6⟩ := contLoop_tells h xs (step f st x s).2.2
    rw [contLoop_cons, cont_cons]
    by_cases h1 : st (step f st x s).1 = .failed
    · rw [if_pos h1, if_pos (Or.inl h1), List.append_nil]
      refine ⟨s1, fun _ => ⟨_, List.mem_cons_self, h1⟩, fun hy => absurd h1 (hy _ List.mem_cons_self), ?_, by simp, fun _ => ⟨_, List.mem_cons_self, Or.inl h1⟩⟩
      intro hx hw
      rw [s4 (hx x List.mem_cons_self) h1] at hw
      cases hw
    · rw [if_neg h1]
      have hx1 : st x ≠ .failed := fun e => h1 (s2 e)
      by_cases h2 : st (step f st x s).1 = .ub
      · rw [if_pos h2, if_pos (Or.inr h2), s3 h1]
        refine ⟨by simp, ?_, fun _ => rfl, ?_, by simp, fun _ => ⟨_, List.mem_cons_self, Or.inr h2⟩⟩
        · rintro ⟨y, hy, e⟩
          rcases List.mem_cons.mp hy with rfl | hy
          · exact absurd e hx1
          · exact ⟨y, List.mem_cons_of_mem _ hy, e⟩
        · intro hx _ y hy
          rcases List.mem_cons.mp hy with rfl | hy
          · exact h1
          · exact hx y (List.mem_cons_of_mem _ hy)
      · rw [if_neg h2, s3 h1, List.nil_append, if_neg (not_or.mpr ⟨h1, h2⟩)]
        refine ⟨i1, ?_, fun hy => i3 fun y hy' => hy y (List.mem_cons_of_mem _ hy'), ?_, ?_, ?_⟩
        · rintro ⟨y, hy, e⟩
          rcases List.mem_cons.mp hy with rfl | hy
          · exact absurd e hx1
          · obtain ⟨z, hz, ez⟩ := i2 ⟨y, hy, e⟩
            exact ⟨z, List.mem_cons_of_mem _ hz, ez⟩
        · intro hx hw y hy
          rcases List.mem_cons.mp hy with rfl | hy
          · exact h1
          · exact i4 (fun z hz => hx z (List.mem_cons_of_mem _ hz)) hw y hy
        · intro hg y hy
          rcases List.mem_cons.mp hy with rfl | hy
          · exact h1
          · exact i5 hg y hy
        · intro hg
          obtain ⟨z, hz, ez⟩ := i6 hg
          exact ⟨z, List.mem_cons_of_mem _ hz, ez⟩

/-- The loop over parts that do not write for themselves. -/
theorem contLoop_own (own : List Nat) : ∀ (xs : List α) (s : PStream),
    ((Tx.contLoop f st xs s).2.2.2 = true → contLoop f st (fun _ _ => []) own xs s = [] ∧ ∀ y ∈ (Tx.contLoop f st xs s).1, st y ≠ .failed) ∧
    ((Tx.contLoop f st xs s).2.2.2 = false → (∃ y ∈ (Tx.contLoop f st xs s).1, st y = .ub) ∨
      contLoop f st (fun _ _ => []) own xs s = own ∧ ∃ y ∈ (Tx.contLoop f st xs s).1, st y = .failed)
  | [], s => by simp [contLoop, Tx.contLoop]
  | x :: xs, s => by
    obtain ⟨i1, i2⟩ := contLoop_own own xs (step f st x s).2.2
    rw [contLoop_cons, cont_cons, ite_self, List.nil_append, List.nil_append]
    by_cases h1 : st (step f st x s).1 = .failed
    · rw [if_pos h1, if_pos (Or.inl h1)]
      exact ⟨by simp, fun _ => Or.inr ⟨rfl, _, List.mem_cons_self, h1⟩⟩
    · rw [if_neg h1]
      by_cases h2 : st (step f st x s).1 = .ub
      · rw [if_pos h2, if_pos (Or.inr h2)]
        exact ⟨by simp, fun _ => Or.inl ⟨_, List.mem_cons_self, h2⟩⟩
      · rw [if_neg h2, if_neg (not_or.mpr ⟨h1, h2⟩)]
        refine ⟨fun hg => ⟨(i1 hg).1, ?_⟩, fun hg => ?_⟩
        · intro y hy
          rcases List.mem_cons.mp hy with rfl | hy
          · exact h1
          · exact (i1 hg).2 y hy
        · rcases i2 hg with ⟨y, hy, e⟩ | ⟨e1, y, hy, e⟩
          · exact Or.inl ⟨y, List.mem_cons_of_mem _ hy, e⟩
          · exact Or.inr ⟨e1, y, List.mem_cons_of_mem _ hy, e⟩

/-! ### Inputs and outputs -/

theorem TxIn_tail (r : TxIn) (br : Nat) (s : PStream) (hst : r.status = .incomplete) : (r.readTail br s).1.status = .failed ↔ r.scriptSig.status = .failed := by
  unfold TxIn.readTail
  by_cases h1 : r.scriptSig.status = .failed
  · rw [if_pos h1]; simp [h1]
  · rw [if_neg h1]
    refine iff_of_false ?_ h1
    split
    · simp
    · dsimp only
      split
      · simp
      · dsimp only
        split <;> simp [hst]

theorem txIn_tells : Tells TxIn.fromStream (·.status) txIn 6 := by
  have key : ∀ (t : TxIn) (s : PStream), ¬ (t.status = .failed ∨ t.status = .ub) →
      txIn t s = if (t.fromStream s).1.status = .failed then [6] else [] := by
    intro t s h
    unfold txIn TxIn.fromStream
    rw [if_neg h, if_neg h]
    have hst : (((t.start.readHead s).1.readScript (t.start.readHead s).2.1 (t.start.readHead s).2.2).1).status = .incomplete := by
      unfold TxIn.readScript TxIn.readHead TxIn.start
      rfl
    have := TxIn_tail _ ((t.start.readHead s).1.readScript (t.start.readHead s).2.1 (t.start.readHead s).2.2).2.1
      ((t.start.readHead s).1.readScript (t.start.readHead s).2.1 (t.start.readHead s).2.2).2.2 hst
    dsimp only
    split
    · next h => rw [if_pos (this.mpr h)]; rfl
    · next h => rw [if_neg (fun h' => h (this.mp h'))]
  refine ⟨fun t s h1 h2 => ?_, fun t s h => ?_, fun t s h => ?_⟩
  · have : ¬ (t.status = .failed ∨ t.status = .ub) := by
      intro h
      unfold TxIn.fromStream at h2
      rw [if_pos h] at h2
      exact h1 h2
    rw [key t s this, if_pos h2]
  · by_cases hc : t.status = .failed ∨ t.status = .ub
    · unfold txIn; rw [if_pos hc]
    · rw [key t s hc, if_neg h]
  · unfold txIn TxIn.fromStream
    rw [if_pos (Or.inl h), if_pos (Or.inl h)]
    exact ⟨rfl, h⟩

theorem TxOut_tail (r : TxOut) (br : Nat) (s : PStream) (hst : r.status = .incomplete) : (r.readTail br s).1.status = .failed ↔ r.scriptPubkey.status = .failed := by
  unfold TxOut.readTail
  by_cases h1 : r.scriptPubkey.status = .failed
  · rw [if_pos h1]; simp [h1]
  · rw [if_neg h1]
    refine iff_of_false ?_ h1
    split
    · simp
    · dsimp only
      split <;> simp [hst]

theorem txOut_tells : Tells TxOut.fromStream (·.status) txOut 7 := by
  have key : ∀ (t : TxOut) (s : PStream), ¬ (t.status = .failed ∨ t.status = .ub) →
      txOut t s = if (t.fromStream s).1.status = .failed then [7] else [] := by
    intro t s h
    unfold txOut TxOut.fromStream
    rw [if_neg h, if_neg h]
    have hst : (((t.start.readHead s).1.readScript (t.start.readHead s).2.1 (t.start.readHead s).2.2).1).status = .incomplete := by
      unfold TxOut.readScript TxOut.readHead TxOut.start
      rfl
    have := TxOut_tail _ ((t.start.readHead s).1.readScript (t.start.readHead s).2.1 (t.start.readHead s).2.2).2.1
      ((t.start.readHead s).1.readScript (t.start.readHead s).2.1 (t.start.readHead s).2.2).2.2 hst
    dsimp only
    split
    · next h => rw [if_pos (this.mpr h)]; rfl
    · next h => rw [if_neg (fun h' => h (this.mp h'))]
  refine ⟨fun t s h1 h2 => ?_, fun t s h => ?_, fun t s h => ?_⟩
  · have : ¬ (t.status = .failed ∨ t.status = .ub) := by
      intro h
      unfold TxOut.fromStream at h2
      rw [if_pos h] at h2
      exact h1 h2
    rw [key t s this, if_pos h2]
  · by_cases hc : t.status = .failed ∨ t.status = .ub
    · unfold txOut; rw [if_pos hc]
    · rw [key t s hc, if_neg h]
  · unfold txOut TxOut.fromStream
    rw [if_pos (Or.inl h), if_pos (Or.inl h)]
    exact ⟨rfl, h⟩

/-! ### Transactions -/

theorem parseAll_keeps {P : α → Prop} (hf : ∀ x s, P x → P (f x s).1) : ∀ (xs : List α) (s : PStream), (∀ x ∈ xs, P x) → ∀ y ∈ (Tx.parseAll f xs s).1, P y
  | [], _, _ => by simp [Tx.parseAll]
  | x :: xs, s, h => by
    have e : (Tx.parseAll f (x :: xs) s).1 = (f x s).1 :: (Tx.parseAll f xs (f x s).2.2).1 := rfl
    rw [e, List.forall_mem_cons]
    exact ⟨hf x s (h x List.mem_cons_self), parseAll_keeps hf xs _ fun y hy => h y (List.mem_cons_of_mem _ hy)⟩

theorem contLoop_keeps {P : α → Prop} (hf : ∀ x s, P x → P (f x s).1) : ∀ (xs : List α) (s : PStream), (∀ x ∈ xs, P x) → ∀ y ∈ (Tx.contLoop f st xs s).1, P y
  | [], _, _ => by simp [Tx.contLoop]
  | x :: xs, s, h => by
    have hx : P (step f st x s).1 := by
      unfold step
      split
      · exact hf x s (h x List.mem_cons_self)
      · exact h x List.mem_cons_self
    have hxs : ∀ y ∈ xs, P y := fun y hy => h y (List.mem_cons_of_mem _ hy)
    rw [contLoop_cons]
    split
    · rw [List.forall_mem_cons]; exact ⟨hx, hxs⟩
    · rw [List.forall_mem_cons]; exact ⟨hx, contLoop_keeps hf xs _ hxs⟩

theorem parseWitness_status (i : TxIn) (s : PStream) : (Tx.parseWitness i s).1.status = i.status := rfl

theorem fromStream_witness (i : TxIn) (s : PStream) : (i.fromStream s).1.witness = i.witness := by
  unfold TxIn.fromStream
  split
  · rfl
  · have h : (((i.start.readHead s).1.readScript (i.start.readHead s).2.1 (i.start.readHead s).2.2).1).witness = i.witness := by
      unfold TxIn.readScript TxIn.readHead TxIn.start
      dsimp only
      split <;> rfl
    dsimp only
    rw [← h]
    unfold TxIn.readTail
    split
    · rfl
    · split
      · rfl
      · dsimp only
        split <;> rfl

/-- No part of the transaction has failed. -/
structure NoFail (t : Tx) : Prop where
  ins : ∀ i ∈ t.txIns, i.status ≠ .failed
  wits : ∀ i ∈ t.txIns, i.witness.status ≠ .failed
  outs : ∀ o ∈ t.txOuts, o.status ≠ .failed

/-- Why the transaction `t` failed, and what was written. -/
inductive Reason (t : Tx) (ws : List Nat) : Prop where
  | input : (∃ i ∈ t.txIns, i.status = .failed) → ws.getLast? = some 6 → Reason t ws
  | output : (∀ i ∈ t.txIns, i.status ≠ .failed) → (∃ o ∈ t.txOuts, o.status = .failed) → ws.getLast? = some 7 → Reason t ws
  | witness : (∀ i ∈ t.txIns, i.status ≠ .failed) → (∀ o ∈ t.txOuts, o.status ≠ .failed) → (∃ i ∈ t.txIns, i.witness.status = .failed) → ws.getLast? = some 5 → Reason t ws
  | flag : NoFail t → t.segwitFlag = 1 → t.bytesParsed = 6 → ws = [] → Reason t ws

/-- What a stage leaves: `lo` bytes at least have been parsed. -/
structure Ends (lo flag : Nat) (t : Tx) (ws : List Nat) : Prop where
  failed : t.status = .failed → Reason t ws
  fine : t.status ≠ .failed → t.status ≠ .ub → ws = [] ∧ NoFail t
  grown : t.status ≠ .ub → lo ≤ t.bytesParsed ∧ t.segwitFlag = flag

theorem Ends.weaken {lo lo' flag flag' : Nat} {t : Tx} {ws : List Nat} (h : Ends lo flag t ws) (h1 : lo' ≤ lo) (h2 : flag = flag') : Ends lo' flag' t ws :=
  ⟨h.failed, h.fine, fun hu => ⟨le_trans h1 (h.grown hu).1, (h.grown hu).2.trans h2⟩⟩

theorem last_of_all {ws : List Nat} {c : Nat} (h : ∀ e ∈ ws, e = c) (hne : ws ≠ []) : ws.getLast? = some c := by
  rw [List.getLast?_eq_getLast_of_ne_nil hne]
  rw [h _ (List.getLast_mem hne)]

theorem lock_ends (t : Tx) (br : Nat) (s : PStream) (hst : t.status = .incomplete) (h : NoFail t) : Ends (t.bytesParsed + br) t.segwitFlag (t.readLock br s).1 [] := by
  unfold Tx.readLock
  dsimp only
  split
  · exact ⟨by simp, by simp, by simp⟩
  · unfold Tx.finish
    refine ⟨?_, fun _ _ => ⟨rfl, h.ins, h.wits, h.outs⟩, fun _ => ⟨?_, rfl⟩⟩
    · dsimp only
      split <;> simp [hst]
    · dsimp only
      omega

theorem contAll_eq (xs : List α) (s : PStream) : Tx.contAll f st xs s = ((Tx.contLoop f st xs s).1, (Tx.contLoop f st xs s).2.1, (Tx.contLoop f st xs s).2.2.1,
    if (Tx.contLoop f st xs s).1.any (fun x => st x = .ub) then some .ub else if (Tx.contLoop f st xs s).2.2.2 then none else some .failed) := rfl

theorem witnesses_ends (t : Tx) (br : Nat) (s : PStream) (hst : t.status = .incomplete) (h : NoFail t) :
    Ends (t.bytesParsed + br) t.segwitFlag (t.readWitnesses br s).1 (witnesses t br s) := by
  unfold Tx.readWitnesses witnesses
  split
  · have hk : ∀ y ∈ (if br + t.bytesParsed = t.witOffset then Tx.parseAll Tx.parseWitness t.txIns s else (t.txIns, 0, s)).1, y.status ≠ .failed := by
      split
      · exact parseAll_keeps (P := fun y : TxIn => y.status ≠ .failed) (fun x s hx => by rwa [parseWitness_status]) _ _ h.ins
      · exact h.ins
    generalize (if br + t.bytesParsed = t.witOffset then Tx.parseAll Tx.parseWitness t.txIns s else (t.txIns, 0, s)) = q at hk
    dsimp only
    rw [contAll_eq]
    have hk2 := contLoop_keeps (P := fun y : TxIn => y.status ≠ .failed) (f := Tx.parseWitness) (st := (·.witness.status))
      (fun x s hx => by rwa [parseWitness_status]) q.1 q.2.2 hk
    obtain ⟨o1, o2⟩ := contLoop_own (f := Tx.parseWitness) (st := (·.witness.status)) [txGlobal ||| txScript] q.1 q.2.2
    generalize contLoop Tx.parseWitness (·.witness.status) (fun _ _ => []) [txGlobal ||| txScript] q.1 q.2.2 = w at o1 o2
    generalize Tx.contLoop Tx.parseWitness (·.witness.status) q.1 q.2.2 = r at hk2 o1 o2
    dsimp only
    by_cases hub : r.1.any (fun x => x.witness.status = .ub) = true
    · rw [if_pos hub]
      exact ⟨by simp [Tx.finish], by simp [Tx.finish], by simp [Tx.finish]⟩
    · rw [if_neg hub]
      cases hr : r.2.2.2 with
      | true =>
        rw [if_pos rfl]
        obtain ⟨e, hn⟩ := o1 hr
        rw [e]
        have := lock_ends { t with txIns := r.1 } (br + q.2.1 + r.2.1) r.2.2.1 hst ⟨hk2, hn, h.outs⟩
        exact this.weaken (by dsimp only; omega) rfl
      | false =>
        rw [if_neg (by simp)]
        rcases o2 hr with ⟨y, hy, e⟩ | ⟨e, y, hy, e'⟩
        · exact absurd (List.any_eq_true.mpr ⟨y, hy, by simpa using e⟩) hub
        · rw [e]
          refine ⟨fun _ => .witness hk2 h.outs ⟨y, hy, e'⟩ rfl, by simp [Tx.finish], fun _ => ⟨?_, rfl⟩⟩
          simp only [Tx.finish]
          omega
  · exact lock_ends t br s hst h

theorem outs_ends (t : Tx) (br : Nat) (s : PStream) (hst : t.status = .incomplete) (h : NoFail t) :
    Ends (t.bytesParsed + br) t.segwitFlag (t.readOuts br s).1 (outs t br s) := by
  unfold Tx.readOuts outs
  have hc : (t.readOutCount br s).1 = { t with txOuts := (t.readOutCount br s).1.txOuts } ∧ br ≤ (t.readOutCount br s).2.1 ∧
      (∀ e ∈ outCount t br s, e = 7) ∧ (outCount t br s = [] ↔ ∀ o ∈ (t.readOutCount br s).1.txOuts, o.status ≠ .failed) := by
    unfold Tx.readOutCount outCount
    split
    · obtain ⟨a, b⟩ := parseAll_tells txOut_tells (List.replicate s.readByte.1.toNat {}) s.readByte.2 (by simp)
      exact ⟨rfl, by dsimp only; omega, a, b⟩
    · exact ⟨rfl, le_refl _, by simp, by simpa using h.outs⟩
  generalize outCount t br s = w0 at hc
  generalize t.readOutCount br s = q at hc
  obtain ⟨c1, c2, c3, c4⟩ := hc
  dsimp only
  rw [contAll_eq]
  obtain ⟨a1, a2, a3, a4, a5, a6⟩ := contLoop_tells txOut_tells q.1.txOuts q.2.2
  generalize contLoop TxOut.fromStream (·.status) txOut [] q.1.txOuts q.2.2 = w1 at a1 a2 a3 a4 a5 a6
  generalize Tx.contLoop TxOut.fromStream (·.status) q.1.txOuts q.2.2 = r at a1 a2 a3 a4 a5 a6
  have hall : ∀ e ∈ w0 ++ w1, e = 7 := by
    intro e he
    rcases List.mem_append.mp he with he | he
    · exact c3 e he
    · exact a1 e he
  have hiff : w0 ++ w1 = [] ↔ ∀ y ∈ r.1, y.status ≠ .failed := by
    rw [List.append_eq_nil_iff]
    constructor
    · rintro ⟨h1, h2⟩
      exact a4 (c4.mp h1) h2
    · intro hy
      refine ⟨c4.mpr fun o ho hf => ?_, a3 hy⟩
      obtain ⟨y, hy', e⟩ := a2 ⟨o, ho, hf⟩
      exact hy y hy' e
  have f1 : q.1.txIns = t.txIns := by rw [c1]
  have f2 : q.1.status = .incomplete := by rw [c1]; exact hst
  have f3 : q.1.bytesParsed = t.bytesParsed := by rw [c1]
  have f4 : q.1.segwitFlag = t.segwitFlag := by rw [c1]
  dsimp only
  by_cases hub : r.1.any (fun x => x.status = .ub) = true
  · rw [if_pos hub]
    exact ⟨by simp [Tx.finish], by simp [Tx.finish], by simp [Tx.finish]⟩
  · rw [if_neg hub]
    cases hr : r.2.2.2 with
    | true =>
      rw [if_pos rfl]
      have hn := a5 hr
      rw [hiff.mpr hn]
      have := witnesses_ends { q.1 with txOuts := r.1 } (q.2.1 + r.2.1) r.2.2.1 f2 ⟨by rw [f1]; exact h.ins, by rw [f1]; exact h.wits, hn⟩
      exact this.weaken (by dsimp only; omega) f4
    | false =>
      rw [if_neg (by simp)]
      obtain ⟨y, hy, e⟩ := a6 hr
      have e' : y.status = .failed := by
        rcases e with e | e
        · exact e
        · exact absurd (List.any_eq_true.mpr ⟨y, hy, by simpa using e⟩) hub
      refine ⟨fun _ => .output (by rw [show ((Tx.finish { q.1 with txOuts := r.1 } .failed (q.2.1 + r.2.1) r.2.2.1).1).txIns = q.1.txIns from rfl, f1]; exact h.ins) ⟨y, hy, e'⟩
        (last_of_all hall fun hw => hiff.mp hw y hy e'), by simp [Tx.finish], fun _ => ?_⟩
      refine ⟨?_, f4⟩
      show t.bytesParsed + br ≤ q.1.bytesParsed + (q.2.1 + r.2.1)
      omega

theorem ins_ends (t : Tx) (br : Nat) (s : PStream) (w0 : List Nat) (hst : t.status = .incomplete) (c3 : ∀ e ∈ w0, e = 6) (c4 : w0 = [] ↔ ∀ i ∈ t.txIns, i.status ≠ .failed)
    (hw : ∀ i ∈ t.txIns, i.witness.status ≠ .failed) (ho : ∀ o ∈ t.txOuts, o.status ≠ .failed) :
    Ends (t.bytesParsed + br) t.segwitFlag (t.readIns br s).1 (w0 ++ ins t br s) := by
  unfold Tx.readIns ins
  dsimp only
  rw [contAll_eq]
  obtain ⟨a1, a2, a3, a4, a5, a6⟩ := contLoop_tells txIn_tells t.txIns s
  have hk := contLoop_keeps (P := fun y : TxIn => y.witness.status ≠ .failed) (f := TxIn.fromStream) (st := (·.status))
      (fun x s hx => by rwa [fromStream_witness]) t.txIns s hw
  generalize contLoop TxIn.fromStream (·.status) txIn [] t.txIns s = w1 at a1 a2 a3 a4 a5 a6
  generalize Tx.contLoop TxIn.fromStream (·.status) t.txIns s = r at a1 a2 a3 a4 a5 a6 hk
  have hall : ∀ e ∈ w0 ++ w1, e = 6 := by
    intro e he
    rcases List.mem_append.mp he with he | he
    · exact c3 e he
    · exact a1 e he
  have hiff : w0 ++ w1 = [] ↔ ∀ y ∈ r.1, y.status ≠ .failed := by
    rw [List.append_eq_nil_iff]
    constructor
    · rintro ⟨h1, h2⟩
      exact a4 (c4.mp h1) h2
    · intro hy
      refine ⟨c4.mpr fun o ho hf => ?_, a3 hy⟩
      obtain ⟨y, hy', e⟩ := a2 ⟨o, ho, hf⟩
      exact hy y hy' e
  dsimp only
  by_cases hub : r.1.any (fun x => x.status = .ub) = true
  · rw [if_pos hub]
    exact ⟨by simp [Tx.finish], by simp [Tx.finish], by simp [Tx.finish]⟩
  · rw [if_neg hub]
    cases hr : r.2.2.2 with
    | true =>
      rw [if_pos rfl]
      have hn := a5 hr
      dsimp only
      rw [← List.append_assoc, hiff.mpr hn]
      have := outs_ends { t with txIns := r.1 } (br + r.2.1) r.2.2.1 hst ⟨hn, hk, ho⟩
      exact this.weaken (by dsimp only; omega) rfl
    | false =>
      rw [if_neg (by simp)]
      obtain ⟨y, hy, e⟩ := a6 hr
      have e' : y.status = .failed := by
        rcases e with e | e
        · exact e
        · exact absurd (List.any_eq_true.mpr ⟨y, hy, by simpa using e⟩) hub
      refine ⟨fun _ => .input ⟨y, hy, e'⟩ (last_of_all hall fun hw => hiff.mp hw y hy e'), by simp [Tx.finish], fun _ => ?_⟩
      refine ⟨?_, rfl⟩
      show t.bytesParsed + br ≤ t.bytesParsed + (br + r.2.1)
      omega

/-- A transaction that has not been started, is complete, or is in the middle of being parsed without failure. -/
def Calm (t : Tx) : Prop := t.status = .done ∨ NoFail t ∧ (t.segwitFlag = 0 ∨ t.segwitFlag = 1 ∧ 5 ≤ t.bytesParsed)

theorem start_calm {t : Tx} (h : Calm t) : t.start.status = .incomplete ∧ NoFail t.start ∧ (t.start.segwitFlag = 0 ∨ t.start.segwitFlag = 1 ∧ 5 ≤ t.start.bytesParsed) := by
  unfold Tx.start
  by_cases hd : t.status = .done
  · rw [if_pos hd]
    exact ⟨rfl, ⟨by simp, by simp, by simp⟩, Or.inl rfl⟩
  · rw [if_neg hd]
    obtain ⟨h1, h2⟩ := h.resolve_left hd
    exact ⟨rfl, ⟨h1.ins, h1.wits, h1.outs⟩, h2⟩

/-- C100: if parsing a transaction (or a piece of it) fails, the value of `ubtc_errno` tells which part failed, except that nothing is written for an unsupported segwit flag;
if it does not fail, `ubtc_errno` is not touched. -/
theorem tx_ends {t : Tx} (hc : Calm t) (hs : t.status ≠ .failed ∧ t.status ≠ .ub) (s : PStream) :
    ((t.fromStream s).1.status = .failed → Reason (t.fromStream s).1 (tx t s)) ∧
    ((t.fromStream s).1.status ≠ .failed → (t.fromStream s).1.status ≠ .ub → tx t s = [] ∧ Calm (t.fromStream s).1) := by
  obtain ⟨h1, h2, h3⟩ := start_calm hc
  unfold Tx.fromStream tx
  rw [if_neg (not_or.mpr hs), if_neg (not_or.mpr hs)]
  generalize t.start = t at h1 h2 h3
  -- the version and the number of inputs
  have hv : ((t.readVersion s).1.status = .incomplete ∧ (t.readVersion s).1.bytesParsed = t.bytesParsed ∧ (t.readVersion s).1.txOuts = t.txOuts) ∧
      (∀ i ∈ (t.readVersion s).1.txIns, i.witness.status ≠ .failed) ∧ (∀ e ∈ version t s, e = 6) ∧
      (version t s = [] ↔ ∀ i ∈ (t.readVersion s).1.txIns, i.status ≠ .failed) ∧
      ((t.readVersion s).1.segwitFlag = 0 ∨ (t.readVersion s).1.segwitFlag = 1 ∧ 5 ≤ t.bytesParsed + (t.readVersion s).2.1 ∧ version t s = []) := by
    unfold Tx.readVersion version
    dsimp only
    split
    · next hc =>
      have h30 : t.segwitFlag = 0 := by
        rcases h3 with h3 | h3
        · exact h3
        · have := hc.2; omega
      by_cases h0 : (s.readN (4 - t.bytesParsed)).2.readByte.1 = 0
      · rw [if_pos h0, if_pos h0]
        refine ⟨⟨h1, rfl, rfl⟩, h2.wits, by simp, by simpa using h2.ins, Or.inr ⟨rfl, ?_, rfl⟩⟩
        have := hc.2
        dsimp only
        omega
      · rw [if_neg h0, if_neg h0]
        obtain ⟨a, b⟩ := parseAll_tells txIn_tells (List.replicate (s.readN (4 - t.bytesParsed)).2.readByte.1.toNat {}) (s.readN (4 - t.bytesParsed)).2.readByte.2 (by simp)
        refine ⟨⟨h1, rfl, rfl⟩, ?_, a, b, Or.inl h30⟩
        exact parseAll_keeps (P := fun y : TxIn => y.witness.status ≠ .failed) (fun x s hx => by rwa [fromStream_witness]) _ _ (by simp)
    · refine ⟨⟨h1, rfl, rfl⟩, h2.wits, by simp, by simpa using h2.ins, ?_⟩
      rcases h3 with h3 | ⟨h3, h4⟩
      · exact Or.inl h3
      · exact Or.inr ⟨h3, by omega, rfl⟩
  generalize version t s = w0 at hv
  generalize hq : t.readVersion s = q at hv
  obtain ⟨⟨v1, v2, v3⟩, v4, v5, v6, v7⟩ := hv
  dsimp only
  -- the flag
  have hf : (q.1.readFlag q.2.1 q.2.2).1 = true ∧ q.2.1 ≤ (q.1.readFlag q.2.1 q.2.2).2.1 ∨
      (q.1.readFlag q.2.1 q.2.2).1 = false ∧ q.1.segwitFlag = 1 ∧ (q.1.readFlag q.2.1 q.2.2).2.1 + q.1.bytesParsed = 6 := by
    unfold Tx.readFlag
    split
    · next hc =>
      dsimp only
      by_cases h : q.2.2.readByte.1 = 1
      · exact Or.inl ⟨by simpa using h, by omega⟩
      · refine Or.inr ⟨by simpa using h, ?_, by omega⟩
        rcases v7 with v7 | v7
        · have := hc.2.1; omega
        · exact v7.1
    · exact Or.inl ⟨rfl, le_refl _⟩
  generalize q.1.readFlag q.2.1 q.2.2 = g at hf
  rcases hf with ⟨g1, g2⟩ | ⟨g1, g2, g3⟩
  · rw [g1, if_pos rfl, if_pos rfl]
    -- the number of inputs of a segwit transaction
    have hi : ((q.1.readSegwitCount g.2.1 g.2.2).1.status = .incomplete ∧ (q.1.readSegwitCount g.2.1 g.2.2).1.bytesParsed = t.bytesParsed ∧
        (q.1.readSegwitCount g.2.1 g.2.2).1.txOuts = t.txOuts ∧ (q.1.readSegwitCount g.2.1 g.2.2).1.segwitFlag = q.1.segwitFlag) ∧
        (∀ i ∈ (q.1.readSegwitCount g.2.1 g.2.2).1.txIns, i.witness.status ≠ .failed) ∧ (∀ e ∈ w0 ++ segwitCount q.1 g.2.1 g.2.2, e = 6) ∧
        (w0 ++ segwitCount q.1 g.2.1 g.2.2 = [] ↔ ∀ i ∈ (q.1.readSegwitCount g.2.1 g.2.2).1.txIns, i.status ≠ .failed) ∧ g.2.1 ≤ (q.1.readSegwitCount g.2.1 g.2.2).2.1 := by
      unfold Tx.readSegwitCount segwitCount
      split
      · next hc =>
        have hw0 : w0 = [] := by
          rcases v7 with v7 | v7
          · have := hc.2.1; omega
          · exact v7.2.2
        obtain ⟨a, b⟩ := parseAll_tells txIn_tells (List.replicate g.2.2.readByte.1.toNat {}) g.2.2.readByte.2 (by simp)
        dsimp only
        rw [hw0, List.nil_append]
        refine ⟨⟨v1, v2, v3, rfl⟩, ?_, a, b, by omega⟩
        exact parseAll_keeps (P := fun y : TxIn => y.witness.status ≠ .failed) (fun x s hx => by rwa [fromStream_witness]) _ _ (by simp)
      · rw [List.append_nil]
        exact ⟨⟨v1, v2, v3, rfl⟩, v4, v5, v6, le_refl _⟩
    generalize segwitCount q.1 g.2.1 g.2.2 = w1 at hi
    generalize q.1.readSegwitCount g.2.1 g.2.2 = r at hi
    obtain ⟨⟨i1, i2, i3, i4⟩, i5, i6, i7, i8⟩ := hi
    have := ins_ends r.1 r.2.1 r.2.2 (w0 ++ w1) i1 i6 i7 i5 (by rw [i3]; exact h2.outs)
    refine ⟨this.failed, fun hn hu => ⟨(this.fine hn hu).1, Or.inr ⟨(this.fine hn hu).2, ?_⟩⟩⟩
    obtain ⟨j1, j2⟩ := this.grown hu
    rw [j2, i4]
    rcases v7 with v7 | v7
    · exact Or.inl v7
    · exact Or.inr ⟨v7.1, le_trans (by have := v7.2.1; omega) j1⟩
  · rw [g1, if_neg (by simp), if_neg (by simp)]
    have hw0 : w0 = [] := by
      rcases v7 with v7 | v7
      · omega
      · exact v7.2.2
    refine ⟨fun _ => .flag ⟨v6.mp hw0, v4, by simp only [Tx.finish]; rw [v3]; exact h2.outs⟩ g2 ?_ hw0, by simp [Tx.finish]⟩
    show q.1.bytesParsed + g.2.1 = 6
    omega

/-! ### PSBTs -/

/-- Why a PSBT failed, and what was written. -/
inductive PReason (p : PSBT) (ws : List Nat) : Prop where
  /-- wrong prefix -/
  | magic : 1 ≤ p.bytesParsed → p.bytesParsed ≤ 5 → ws.getLast? = some 1 → PReason p ws
  /-- the first key is not that of the transaction, or a pair was refused -/
  | scope : p.key.status = .done → p.value.status = .done → ws.getLast? = some 2 → PReason p ws
  | key : p.key.status = .failed → ws.getLast? = some 3 → PReason p ws
  | value : p.key.status ≠ .failed → p.value.status = .failed → ws.getLast? = some 4 → PReason p ws
  /-- the transaction is invalid -/
  | tx : p.key.ser = .ok [1, 0] → p.tx.status = .failed → Reason p.tx ws → PReason p ws
  /-- the transaction is not complete -/
  | short : p.key.ser = .ok [1, 0] → p.tx.status = .incomplete → ws = [] → PReason p ws

/-- Not done, and nothing has failed: the transaction has not been looked at as long as the first pair is not complete. -/
structure PCalm (p : PSBT) : Prop where
  pos : p.status ≠ .done → 5 ≤ p.lastKeyPos
  tx : p.status ≠ .done → p.lastKeyPos = 5 → p.tx.status ≠ .failed ∧ p.tx.status ≠ .ub ∧ Calm p.tx

structure PEnds (p : PSBT) (ws : List Nat) : Prop where
  failed : p.status = .failed → PReason p ws
  fine : p.status ≠ .failed → p.status ≠ .ub → ws = [] ∧ PCalm p

theorem calm_fresh : Calm {} := Or.inl rfl

theorem inMeta_writes (junk : Bytes) (m : InMeta) (i : TxIn) (code : UInt8) (ka va : Bytes) (r : Int) (m' : InMeta) (h : m.add junk i code ka va = .ok (r, m')) (hr : 0 ≤ r) :
    inMeta m code ka va = [] := by
  unfold inMeta
  by_cases hl : ka.length ≠ 2
  · rw [if_pos hl]
  · rw [if_neg hl]
    unfold InMeta.add at h
    by_cases h0 : code = 0
    · rw [if_pos h0] at h ⊢
      rw [if_neg hl] at h
      dsimp only at h
      obtain ⟨-, hf⟩ := tx_ends calm_fresh (by decide) { bytes := va.drop (dataPos va) }
      by_cases hu : (({} : Tx).fromStream { bytes := va.drop (dataPos va) }).1.status = .ub
      · rw [if_pos hu] at h; cases h
      · rw [if_neg hu] at h
        by_cases hd : (({} : Tx).fromStream { bytes := va.drop (dataPos va) }).1.status ≠ .done
        · rw [if_pos hd] at h
          cases h
          exact absurd hr (by decide)
        · have hd' := not_not.mp hd
          exact (hf (by rw [hd']; simp) hu).1
    · rw [if_neg h0] at h ⊢
      by_cases h1 : code = 1
      · rw [if_pos h1] at h ⊢
        rw [if_neg hl] at h
        dsimp only at h
        by_cases hu : (m.txOut.fromStream { bytes := va.drop (dataPos va) }).1.status = .ub
        · rw [if_pos hu] at h; cases h
        · rw [if_neg hu] at h
          by_cases hd : (m.txOut.fromStream { bytes := va.drop (dataPos va) }).1.status ≠ .done
          · rw [if_pos hd] at h
            cases h
            exact absurd hr (by decide)
          · have hd' := not_not.mp hd
            exact txOut_tells.good _ _ (by rw [hd']; simp)
      · rw [if_neg h1]

/-- A pair that is not refused causes no writes; the transaction, key and value stay. -/
theorem add_writes (p : PSBT) (junk : Bytes) (sec : UInt8) (k v : Script) (r : Int) (q : PSBT) (h : p.add junk sec k v = .ok (r, q)) :
    (0 ≤ r → add p sec k v = []) ∧ q.tx = p.tx ∧ q.key = p.key ∧ q.value = p.value ∧ q.lastKeyPos = p.lastKeyPos ∧ q.status = p.status := by
  unfold PSBT.add at h
  unfold add
  by_cases hs : sec = 0 ∨ sec.toNat > 1 + p.tx.txIns.length + p.tx.txOuts.length
  · rw [if_pos hs] at h ⊢
    cases h
    exact ⟨fun _ => rfl, rfl, rfl, rfl, rfl, rfl⟩
  · rw [if_neg hs] at h ⊢
    cases hk : k.ser with
    | ub => rw [hk] at h; cases h
    | ok ka =>
      rw [hk, C.bind_ok] at h
      cases hv : v.ser with
      | ub => rw [hv] at h; cases h
      | ok va =>
        rw [hv, C.bind_ok] at h
        dsimp only
        cases hp : peek ka (dataPos ka) with
        | ub => rw [hp] at h; cases h
        | ok code =>
          rw [hp, C.bind_ok] at h
          by_cases hi : sec.toNat < 1 + p.tx.txIns.length
          · rw [if_pos hi] at h
            cases hm : p.ins[sec.toNat - 1]? with
            | none => rw [hm] at h; cases h
            | some m =>
              rw [hm] at h
              cases ht : p.tx.txIns[sec.toNat - 1]? with
              | none => rw [ht] at h; cases h
              | some i =>
                rw [ht] at h
                dsimp only at h ⊢
                cases ha : m.add junk i code ka va with
                | ub => rw [ha] at h; cases h
                | ok x =>
                  obtain ⟨r', m'⟩ := x
                  rw [ha, C.bind_ok] at h
                  cases h
                  refine ⟨fun hr => ?_, rfl, rfl, rfl, rfl, rfl⟩
                  rw [if_pos hi]
                  exact inMeta_writes junk m i code ka va _ m' ha hr
          · rw [if_neg hi] at h
            have hq : q.tx = p.tx ∧ q.key = p.key ∧ q.value = p.value ∧ q.lastKeyPos = p.lastKeyPos ∧ q.status = p.status := by
              cases ho : p.outs[sec.toNat - 1 - p.tx.txIns.length]? with
              | none => rw [ho] at h; cases h
              | some m =>
                rw [ho] at h
                dsimp only at h
                cases ha : m.add junk code ka va with
                | ub => rw [ha] at h; cases h
                | ok x =>
                  rw [ha, C.bind_ok] at h
                  cases h
                  exact ⟨rfl, rfl, rfl, rfl, rfl⟩
            refine ⟨fun _ => ?_, hq⟩
            cases p.ins[sec.toNat - 1]? with
            | none => rfl
            | some m => dsimp only; rw [if_neg hi]

/-- The outcome of a round. -/
structure Round (p : PSBT) (out : (PSBT × Nat × PStream) × Bool) (ws : List Nat) : Prop where
  stop : out.2 = true → out.1.1.status = .ub ∨ out.1.1.status = .failed ∧ PReason out.1.1 ws
  go : out.2 = false → ws = [] ∧ out.1.1.status = p.status ∧ p.lastKeyPos ≤ out.1.1.lastKeyPos ∧ out.1.1.tx = p.tx

theorem roundAdd_spec (p : PSBT) (junk : Bytes) (br : Nat) (s : PStream) : Round p (p.roundAdd junk br s) (roundAdd p junk) := by
  unfold PSBT.roundAdd roundAdd
  by_cases hu : p.key.status = .ub ∨ p.value.status = .ub
  · rw [if_pos hu, if_pos hu]
    exact ⟨fun _ => Or.inl rfl, by simp⟩
  · rw [if_neg hu, if_neg hu]
    by_cases hd : p.key.status = .done ∧ p.value.status = .done
    · rw [if_pos hd, if_pos hd]
      cases ha : p.add junk p.sec p.key p.value with
      | ub => exact ⟨fun _ => Or.inl rfl, by simp⟩
      | ok x =>
        obtain ⟨r, q⟩ := x
        obtain ⟨a1, a2, a3, a4, a5, a6⟩ := add_writes p junk p.sec p.key p.value r q ha
        dsimp only
        by_cases hr : r < 0
        · rw [if_pos hr, if_pos hr]
          refine ⟨fun _ => Or.inr ⟨rfl, .scope ?_ ?_ ?_⟩, by simp⟩
          · rw [← hd.1, ← a3]; rfl
          · rw [← hd.2, ← a4]; rfl
          · simp [psbtScope]
        · rw [if_neg hr, if_neg hr]
          refine ⟨by simp, fun _ => ⟨by rw [a1 (by omega)]; rfl, a6, ?_, a2⟩⟩
          dsimp only
          omega
    · rw [if_neg hd, if_neg hd]
      exact ⟨by simp, fun _ => ⟨rfl, rfl, le_refl _, rfl⟩⟩

theorem Round.of_same {p p' : PSBT} {out : (PSBT × Nat × PStream) × Bool} {ws : List Nat} (h : Round p out ws) (h1 : p.status = p'.status) (h2 : p.lastKeyPos = p'.lastKeyPos)
    (h3 : p.tx = p'.tx) : Round p' out ws :=
  ⟨h.stop, fun ho => by have := h.go ho; rwa [h1, h2, h3] at this⟩

/-- The key and value may change, nothing else. -/
structure Similar (p q : PSBT) : Prop where
  status : q.status = p.status
  lastKeyPos : q.lastKeyPos = p.lastKeyPos
  tx : q.tx = p.tx
  bytesParsed : q.bytesParsed = p.bytesParsed

theorem Similar.ite_key (c : Prop) [Decidable c] (p : PSBT) (br : Nat) (s : PStream) : Similar p (if c then p.parseKey br s else (p, br, s)).1 := by
  split <;> exact ⟨rfl, rfl, rfl, rfl⟩

theorem Similar.ite_value (c : Prop) [Decidable c] (p : PSBT) (br : Nat) (s : PStream) : Similar p (if c then p.parseValue br s else (p, br, s)).1 := by
  split <;> exact ⟨rfl, rfl, rfl, rfl⟩

theorem roundRetry_spec (p : PSBT) (junk : Bytes) (br : Nat) (s : PStream) : Round p (p.roundRetry junk br s) (roundRetry p junk br s) := by
  unfold PSBT.roundRetry roundRetry
  by_cases hu : p.key.status = .ub ∨ p.value.status = .ub
  · rw [if_pos hu, if_pos hu]
    exact ⟨fun _ => Or.inl rfl, by simp⟩
  · rw [if_neg hu, if_neg hu]
    by_cases hd : p.key.status = .failed ∨ p.value.status = .failed
    · rw [if_pos hd, if_pos hd]
      refine ⟨fun _ => Or.inr ⟨rfl, ?_⟩, by simp⟩
      by_cases hk : p.key.status = .failed
      · rw [if_pos hk]; exact .key hk rfl
      · rw [if_neg hk]; exact .value hk (hd.resolve_left hk) rfl
    · rw [if_neg hd, if_neg hd]
      have s1 := Similar.ite_key (p.key.status = .incomplete) p br s
      generalize (if p.key.status = .incomplete then p.parseKey br s else (p, br, s)) = q1 at s1
      have s2 := Similar.ite_value (q1.1.value.status = .incomplete) q1.1 q1.2.1 q1.2.2
      dsimp only
      generalize (if q1.1.value.status = .incomplete then q1.1.parseValue q1.2.1 q1.2.2 else (q1.1, q1.2.1, q1.2.2)) = q2 at s2
      exact (roundAdd_spec q2.1 junk q2.2.1 q2.2.2).of_same (s2.status.trans s1.status) (s2.lastKeyPos.trans s1.lastKeyPos) (s2.tx.trans s1.tx)

theorem round_spec (p : PSBT) (junk : Bytes) (br : Nat) (s : PStream) : Round p (p.round junk br s) (round p junk br s) := by
  unfold PSBT.round round
  have s1 := Similar.ite_key (p.key.status = .done ∧ p.value.status = .done) p br s
  generalize (if p.key.status = .done ∧ p.value.status = .done then p.parseKey br s else (p, br, s)) = q1 at s1
  dsimp only
  by_cases hd : q1.1.key.status = .done ∧ q1.1.key.length = 1
  · rw [if_pos hd, if_pos hd]
    refine ⟨by simp, fun _ => ⟨rfl, s1.status, ?_, s1.tx⟩⟩
    have := s1.lastKeyPos
    dsimp only
    omega
  · rw [if_neg hd, if_neg hd]
    have s2 := Similar.ite_value (q1.1.key.status = .done) q1.1 q1.2.1 q1.2.2
    generalize (if q1.1.key.status = .done then q1.1.parseValue q1.2.1 q1.2.2 else (q1.1, q1.2.1, q1.2.2)) = q2 at s2
    exact (roundRetry_spec q2.1 junk q2.2.1 q2.2.2).of_same (s2.status.trans s1.status) (s2.lastKeyPos.trans s1.lastKeyPos) (s2.tx.trans s1.tx)

theorem lenVarIntN_ne_zero (n : Nat) : lenVarIntN n ≠ 0 := by
  unfold lenVarIntN lenVarInt
  split
  · decide
  · split
    · decide
    · split <;> decide

theorem finishAll_ends (p : PSBT) (br : Nat) (s : PStream) (hst : p.status = .incomplete) (hc : PCalm p) : PEnds (p.finishAll br s).1 [] := by
  unfold PSBT.finishAll
  split
  · exact ⟨by simp [PSBT.finish], fun _ _ => ⟨rfl, by simp [PSBT.finish], by simp [PSBT.finish]⟩⟩
  · exact ⟨by simp [PSBT.finish, hst], fun _ _ => ⟨rfl, fun _ => hc.pos (by simp [hst]), fun _ h => hc.tx (by simp [hst]) h⟩⟩

theorem loop_ends (junk : Nat → Bytes) : ∀ (fuel : Nat) (p : PSBT) (br : Nat) (s : PStream), p.status = .incomplete → PCalm p →
    PEnds (PSBT.loop junk fuel p br s).1 (loop junk fuel p br s)
  | 0, p, br, s, hst, hc => finishAll_ends p br s hst hc
  | fuel + 1, p, br, s, hst, hc => by
    unfold PSBT.loop loop
    by_cases ha : s.avail ∧ p.sec < p.sections
    · rw [if_pos ha, if_pos ha]
      have hpos : 5 < p.lastKeyPos := by
        by_contra h
        have h2 := ha.2
        unfold PSBT.sections at h2
        rw [if_neg (by omega)] at h2
        exact absurd (UInt8.lt_iff_toNat_lt.mp h2) (by simp)
      have hr := round_spec p (junk p.lastKeyPos) br s
      generalize round p (junk p.lastKeyPos) br s = w at hr
      generalize p.round (junk p.lastKeyPos) br s = out at hr
      obtain ⟨⟨q, br', s'⟩, b⟩ := out
      cases b with
      | true =>
        dsimp only
        rcases hr.stop rfl with h | ⟨h, h'⟩
        · dsimp only at h
          exact ⟨fun e => absurd (h.symm.trans e) (by simp), fun _ e => absurd h e⟩
        · dsimp only at h h'
          exact ⟨fun _ => h', fun e => absurd h e⟩
      | false =>
        obtain ⟨g1, g2, g3, g4⟩ := hr.go rfl
        dsimp only at g2 g3 g4 ⊢
        rw [g1, List.nil_append]
        exact loop_ends junk fuel q br' s' (g2.trans hst) ⟨fun _ => by omega, fun _ h => by omega⟩
    · rw [if_neg ha, if_neg ha]
      exact finishAll_ends p br s hst hc

theorem afterGlobal_ends (junk : Nat → Bytes) (p : PSBT) (br : Nat) (s : PStream) (hst : p.status = .incomplete) (hc : PCalm p) :
    PEnds (PSBT.afterGlobal junk p br s).1 (afterGlobal junk p br s) := by
  unfold PSBT.afterGlobal afterGlobal
  by_cases h : p.lastKeyPos = 5 ∧ p.value.status = .done ∧ p.key.status = .done
  · rw [if_pos h, if_pos h]
    obtain ⟨c1, c2, c3⟩ := hc.tx (by simp [hst]) h.1
    unfold PSBT.readTx readTx
    cases hk : p.key.ser with
    | ub => exact ⟨by simp, by simp⟩
    | ok ka =>
      rw [C.bind_ok]
      by_cases ha : ka ≠ [1, 0]
      · rw [if_pos ha]
        have e : (match (C.ok ka : C Bytes), p.value.ser with
          | .ok ka, .ok va => if ka ≠ [1, 0] then [psbtScope] else tx p.tx { bytes := va.drop (dataPos va) }
          | .ok ka, .ub => if ka ≠ [1, 0] then [psbtScope] else []
          | .ub, _ => []) = [psbtScope] := by
          cases p.value.ser <;> dsimp only <;> rw [if_pos ha]
        rw [C.pure_eq]
        dsimp only
        rw [if_pos rfl, if_pos rfl]
        refine ⟨fun _ => .scope h.2.2 h.2.1 ?_, by simp [PSBT.finish]⟩
        have := congrArg List.getLast? e
        exact this.trans rfl
      · rw [if_neg ha]
        have ha' := not_not.mp ha
        subst ha'
        cases hv : p.value.ser with
        | ub => exact ⟨by simp, by simp⟩
        | ok va =>
          rw [C.bind_ok]
          dsimp only
          rw [if_neg ha]
          obtain ⟨t1, t2⟩ := tx_ends c3 ⟨c1, c2⟩ { bytes := va.drop (dataPos va) }
          generalize tx p.tx { bytes := va.drop (dataPos va) } = w at t1 t2
          generalize (p.tx.fromStream { bytes := va.drop (dataPos va) }).1 = t at t1 t2
          by_cases hu : t.status = .ub
          · rw [if_pos hu]
            exact ⟨by simp, by simp⟩
          · rw [if_neg hu]
            by_cases hd : t.status ≠ .done
            · rw [if_pos hd, C.pure_eq]
              dsimp only
              rw [if_pos rfl, if_pos rfl]
              refine ⟨fun _ => ?_, by simp [PSBT.finish]⟩
              by_cases hf : t.status = .failed
              · exact .tx hk hf (t1 hf)
              · refine .short hk ?_ (t2 hf hu).1
                show t.status = .incomplete
                cases hts : t.status with
                | done => exact absurd hts hd
                | incomplete => rfl
                | failed => exact absurd hts hf
                | ub => exact absurd hts hu
            · rw [if_neg hd, C.pure_eq]
              have hd' := not_not.mp hd
              dsimp only
              rw [if_neg (by rw [hst]; simp), if_neg (by rw [hst]; simp), (t2 (by rw [hd']; simp) hu).1, List.nil_append]
              have hpos : 1 ≤ p.key.length := by
                unfold Script.length
                have := Nat.one_le_iff_ne_zero.mpr (lenVarIntN_ne_zero p.key.scriptLen)
                omega
              exact loop_ends junk _ _ br s hst ⟨fun _ => by dsimp only; omega, fun _ h5 => by dsimp only at h5; omega⟩
  · rw [if_neg h, if_neg h]
    exact loop_ends junk _ p br s hst hc

theorem globalValue_ends (junk : Nat → Bytes) (p : PSBT) (br : Nat) (s : PStream) (hst : p.status = .incomplete) (hc : PCalm p) (hk : p.key.status ≠ .failed) :
    PEnds (PSBT.globalValue junk p br s).1 (globalValue junk p br s) := by
  unfold PSBT.globalValue globalValue
  have s1 := Similar.ite_value (s.avail ∧ p.value.status = .incomplete) p br s
  have hk' : (if s.avail ∧ p.value.status = .incomplete then p.parseValue br s else (p, br, s)).1.key.status ≠ .failed := by split <;> exact hk
  generalize (if s.avail ∧ p.value.status = .incomplete then p.parseValue br s else (p, br, s)) = q at s1 hk'
  dsimp only
  by_cases hu : q.1.value.status = .ub
  · rw [if_pos hu, if_pos hu]
    exact ⟨by simp, by simp⟩
  · rw [if_neg hu, if_neg hu]
    by_cases hf : q.1.value.status = .failed
    · rw [if_pos hf, if_pos hf]
      exact ⟨fun _ => .value hk' hf rfl, by simp [PSBT.finish]⟩
    · rw [if_neg hf, if_neg hf]
      exact afterGlobal_ends junk q.1 q.2.1 q.2.2 (s1.status.trans hst) ⟨by rw [s1.lastKeyPos, s1.status]; exact hc.pos, by rw [s1.lastKeyPos, s1.status, s1.tx]; exact hc.tx⟩

theorem globalKey_ends (junk : Nat → Bytes) (p : PSBT) (br : Nat) (s : PStream) (hst : p.status = .incomplete) (hc : PCalm p) :
    PEnds (PSBT.globalKey junk p br s).1 (globalKey junk p br s) := by
  unfold PSBT.globalKey globalKey
  have s1 := Similar.ite_key (s.avail ∧ p.key.status = .incomplete) p br s
  generalize (if s.avail ∧ p.key.status = .incomplete then p.parseKey br s else (p, br, s)) = q at s1
  dsimp only
  by_cases hu : q.1.key.status = .ub
  · rw [if_pos hu, if_pos hu]
    exact ⟨by simp, by simp⟩
  · rw [if_neg hu, if_neg hu]
    by_cases hf : q.1.key.status = .failed
    · rw [if_pos hf, if_pos hf]
      by_cases hv : q.1.value.status = .ub
      · rw [if_pos hv, if_pos hv]
        exact ⟨by simp, by simp⟩
      · rw [if_neg hv, if_neg hv]
        exact ⟨fun _ => .key hf rfl, by simp [PSBT.finish]⟩
    · rw [if_neg hf, if_neg hf]
      exact globalValue_ends junk q.1 q.2.1 q.2.2 (s1.status.trans hst) ⟨by rw [s1.lastKeyPos, s1.status]; exact hc.pos, by rw [s1.lastKeyPos, s1.status, s1.tx]; exact hc.tx⟩ hf

theorem readMagic_le : ∀ (bs : Bytes) (n : Nat) (s : PStream), (PSBT.readMagic bs n s).1 = false → n + 1 ≤ (PSBT.readMagic bs n s).2.1 ∧ (PSBT.readMagic bs n s).2.1 ≤ n + bs.length
  | [], n, s => by simp [PSBT.readMagic]
  | b :: bs, n, s => by
    unfold PSBT.readMagic
    split
    · dsimp only
      split
      · intro _
        rw [List.length_cons]
        dsimp only
        omega
      · intro h
        have := readMagic_le bs (n + 1) _ h
        rw [List.length_cons]
        omega
    · intro h; cases h

theorem psbt_ends (junk : Nat → Bytes) {p : PSBT} (hc : PCalm p) (hs : p.status ≠ .failed ∧ p.status ≠ .ub) (s : PStream) :
    PEnds (PSBT.fromStream junk p s).1 (psbt junk p s) := by
  unfold PSBT.fromStream psbt
  rw [if_neg (not_or.mpr hs), if_neg (not_or.mpr hs)]
  by_cases hr : p.status = .done ∧ p.release = .ub
  · rw [if_pos hr, if_pos hr]
    exact ⟨by simp, by simp⟩
  · rw [if_neg hr, if_neg hr]
    have h1 : p.start.status = .incomplete ∧ PCalm p.start := by
      unfold PSBT.start
      by_cases hd : p.status = .done
      · rw [if_pos hd]
        exact ⟨rfl, fun _ => le_refl _, fun _ _ => ⟨by simp, by simp, Or.inl rfl⟩⟩
      · rw [if_neg hd]
        exact ⟨rfl, fun _ => hc.pos hd, fun _ h => hc.tx hd h⟩
    dsimp only
    have hm := readMagic_le (PSBT.magic.drop p.start.bytesParsed) 0 s
    generalize PSBT.readMagic (PSBT.magic.drop p.start.bytesParsed) 0 s = q at hm
    obtain ⟨b, br, s'⟩ := q
    cases b with
    | false =>
      obtain ⟨m1, m2⟩ := hm rfl
      rw [List.length_drop] at m2
      dsimp only at m1 m2
      have m3 : PSBT.magic.length = 5 := rfl
      refine ⟨fun _ => .magic ?_ ?_ rfl, by simp [PSBT.finish]⟩
      · show 1 ≤ p.start.bytesParsed + br
        omega
      · show p.start.bytesParsed + br ≤ 5
        omega
    | true =>
      dsimp only
      unfold PSBT.readGlobal readGlobal
      split
      · exact globalKey_ends junk _ _ _ h1.1 ⟨h1.2.pos, h1.2.tx⟩
      · exact globalKey_ends junk _ _ _ h1.1 h1.2

/-! ### C100 -/

/-- A transaction is parsed in pieces; `e` is `ubtc_errno` before. -/
def runTx : Tx → Nat → List Bytes → Tx × Nat
  | t, e, [] => (t, e)
  | t, e, b :: bs => runTx (t.fromStream (.of b)).1 (after e (tx t (.of b))) bs

/-- A PSBT is parsed in pieces. -/
def runPsbt (junk : Nat → Bytes) : PSBT → Nat → List Bytes → PSBT × Nat
  | p, e, [] => (p, e)
  | p, e, b :: bs => runPsbt junk (PSBT.fromStream junk p (.of b)).1 (after e (psbt junk p (.of b))) bs

/-- What `ubtc_errno` tells about a transaction that failed; `old` is the value before. -/
structure Explains (t : Tx) (old e : Nat) : Prop where
  input : (∃ i ∈ t.txIns, i.status = .failed) → e = 6
  output : (∀ i ∈ t.txIns, i.status ≠ .failed) → (∃ o ∈ t.txOuts, o.status = .failed) → e = 7
  witness : (∀ i ∈ t.txIns, i.status ≠ .failed) → (∀ o ∈ t.txOuts, o.status ≠ .failed) → (∃ i ∈ t.txIns, i.witness.status = .failed) → e = 5
  /-- no part has failed: the segwit flag is not 1 -/
  flag : NoFail t → e = old ∧ t.segwitFlag = 1 ∧ t.bytesParsed = 6

theorem Reason.explains {t : Tx} {ws : List Nat} (h : Reason t ws) (old : Nat) : Explains t old (after old ws) := by
  unfold after
  cases h with
  | input h1 h2 =>
    rw [h2]
    obtain ⟨i, hi, e⟩ := h1
    exact ⟨fun _ => rfl, fun h => absurd e (h i hi), fun h => absurd e (h i hi), fun h => absurd e (h.ins i hi)⟩
  | output h0 h1 h2 =>
    rw [h2]
    obtain ⟨o, ho, e⟩ := h1
    exact ⟨fun ⟨i, hi, e⟩ => absurd e (h0 i hi), fun _ _ => rfl, fun _ h => absurd e (h o ho), fun h => absurd e (h.outs o ho)⟩
  | witness h0 h0' h1 h2 =>
    rw [h2]
    obtain ⟨i, hi, e⟩ := h1
    exact ⟨fun ⟨i, hi, e⟩ => absurd e (h0 i hi), fun _ ⟨o, ho, e⟩ => absurd e (h0' o ho), fun _ _ _ => rfl, fun h => absurd e (h.wits i hi)⟩
  | flag h1 h2 h3 h4 =>
    rw [h4]
    exact ⟨fun ⟨i, hi, e⟩ => absurd e (h1.ins i hi), fun _ ⟨o, ho, e⟩ => absurd e (h1.outs o ho), fun _ _ ⟨i, hi, e⟩ => absurd e (h1.wits i hi), fun _ => ⟨rfl, h2, h3⟩⟩

theorem runTx_stuck {t : Tx} (h : t.status = .failed ∨ t.status = .ub) (e : Nat) : ∀ bs : List Bytes, runTx t e bs = (t, e)
  | [] => rfl
  | b :: bs => by
    have e1 : t.fromStream (.of b) = (t, 0, .of b) := by unfold Tx.fromStream; rw [if_pos h]
    have e2 : tx t (.of b) = [] := by unfold tx; rw [if_pos h]
    rw [runTx, e1, e2]
    exact runTx_stuck h e bs

/-- C100 (partial): as long as a transaction does not fail, in whatever pieces it is parsed, `ubtc_errno` keeps its value; when it has failed, `ubtc_errno` tells which part
was wrong.  Missing: transactions with an unsupported segwit flag (`C100_flag_silent`), and objects with a failed part that have not failed themselves (there are none: `Calm`). -/
theorem C100_tx_partial : ∀ (bs : List Bytes) {t : Tx}, Calm t → t.status ≠ .failed ∧ t.status ≠ .ub → ∀ old : Nat,
    ((runTx t old bs).1.status = .failed → Explains (runTx t old bs).1 old (runTx t old bs).2) ∧
    ((runTx t old bs).1.status ≠ .failed → (runTx t old bs).1.status ≠ .ub → (runTx t old bs).2 = old)
  | [], t, _, hs, old => ⟨fun h => absurd h hs.1, fun _ _ => rfl⟩
  | b :: bs, t, hc, hs, old => by
    obtain ⟨h1, h2⟩ := tx_ends hc hs (.of b)
    rw [runTx]
    by_cases hf : (t.fromStream (.of b)).1.status = .failed
    · rw [runTx_stuck (Or.inl hf)]
      exact ⟨fun _ => (h1 hf).explains old, fun h => absurd hf h⟩
    · by_cases hu : (t.fromStream (.of b)).1.status = .ub
      · rw [runTx_stuck (Or.inr hu)]
        exact ⟨fun h => absurd h hf, fun _ h => absurd hu h⟩
      · obtain ⟨g1, g2⟩ := h2 hf hu
        rw [g1]
        exact C100_tx_partial bs g2 ⟨hf, hu⟩ old

/-- What `ubtc_errno` tells about a PSBT that failed. -/
inductive PExplains (p : PSBT) (old e : Nat) : Prop where
  | magic : 1 ≤ p.bytesParsed → p.bytesParsed ≤ 5 → e = 1 → PExplains p old e
  | scope : p.key.status = .done → p.value.status = .done → e = 2 → PExplains p old e
  | key : p.key.status = .failed → e = 3 → PExplains p old e
  | value : p.key.status ≠ .failed → p.value.status = .failed → e = 4 → PExplains p old e
  | tx : p.key.ser = .ok [1, 0] → p.tx.status = .failed → Explains p.tx old e → PExplains p old e
  | short : p.key.ser = .ok [1, 0] → p.tx.status = .incomplete → e = old → PExplains p old e

theorem PReason.explains {p : PSBT} {ws : List Nat} (h : PReason p ws) (old : Nat) : PExplains p old (after old ws) := by
  cases h with
  | magic h1 h2 h3 => exact .magic h1 h2 (by unfold after; rw [h3]; rfl)
  | scope h1 h2 h3 => exact .scope h1 h2 (by unfold after; rw [h3]; rfl)
  | key h1 h3 => exact .key h1 (by unfold after; rw [h3]; rfl)
  | value h1 h2 h3 => exact .value h1 h2 (by unfold after; rw [h3]; rfl)
  | tx h1 h2 h3 => exact .tx h1 h2 (h3.explains old)
  | short h1 h2 h3 => exact .short h1 h2 (by rw [h3]; rfl)

theorem runPsbt_stuck (junk : Nat → Bytes) {p : PSBT} (h : p.status = .failed ∨ p.status = .ub) (e : Nat) : ∀ bs : List Bytes, runPsbt junk p e bs = (p, e)
  | [] => rfl
  | b :: bs => by
    have e1 : PSBT.fromStream junk p (.of b) = (p, 0, .of b) := by unfold PSBT.fromStream; rw [if_pos h]
    have e2 : psbt junk p (.of b) = [] := by unfold psbt; rw [if_pos h]
    rw [runPsbt, e1, e2]
    exact runPsbt_stuck junk h e bs

/-- C100 (partial): the same for PSBTs.  Missing: nothing is written when the transaction ends early or has an unsupported segwit flag, and the values written for an invalid
transaction are those of the transaction (`C100_codes_ambiguous`). -/
theorem C100_psbt_partial (junk : Nat → Bytes) : ∀ (bs : List Bytes) {p : PSBT}, PCalm p → p.status ≠ .failed ∧ p.status ≠ .ub → ∀ old : Nat,
    ((runPsbt junk p old bs).1.status = .failed → PExplains (runPsbt junk p old bs).1 old (runPsbt junk p old bs).2) ∧
    ((runPsbt junk p old bs).1.status ≠ .failed → (runPsbt junk p old bs).1.status ≠ .ub → (runPsbt junk p old bs).2 = old)
  | [], p, _, hs, old => ⟨fun h => absurd h hs.1, fun _ _ => rfl⟩
  | b :: bs, p, hc, hs, old => by
    have h := psbt_ends junk hc hs (.of b)
    rw [runPsbt]
    by_cases hf : (PSBT.fromStream junk p (.of b)).1.status = .failed
    · rw [runPsbt_stuck junk (Or.inl hf)]
      exact ⟨fun _ => (h.failed hf).explains old, fun h => absurd hf h⟩
    · by_cases hu : (PSBT.fromStream junk p (.of b)).1.status = .ub
      · rw [runPsbt_stuck junk (Or.inr hu)]
        exact ⟨fun h => absurd h hf, fun _ h => absurd hu h⟩
      · obtain ⟨g1, g2⟩ := h.fine hf hu
        rw [g1]
        exact C100_psbt_partial junk bs g2 ⟨hf, hu⟩ old

end Errno

open Errno

/-- C100: nothing is written for an unsupported segwit flag, so `ubtc_errno` keeps the value of some earlier failure, or 0. -/
theorem C100_flag_silent (v : Bytes) (hv : v.length = 4) (c : UInt8) (hc : c ≠ 1) (rest : Bytes) (old : Nat) :
    (runTx {} old [v ++ 0 :: c :: rest]).1.status = .failed ∧ (runTx {} old [v ++ 0 :: c :: rest]).2 = old := by
  match v, hv with
  | [a, b, d, e], _ =>
    have hc' : ¬ (PStream.readByte (.of (c :: rest))).1 = 1 := hc
    have h1 : ((({} : Tx).fromStream (.of ([a, b, d, e] ++ 0 :: c :: rest)))).1.status = .failed := by
      simp [Tx.fromStream, Tx.start, Tx.readVersion, Tx.readFlag, PStream.readN, PStream.avail, PStream.readByte, Tx.finish, hc]
    have h2 : tx {} (.of ([a, b, d, e] ++ 0 :: c :: rest)) = [] := by
      simp [tx, version, Tx.start, Tx.readVersion, Tx.readFlag, PStream.readN, PStream.avail, PStream.readByte, hc]
    rw [runTx, h2]
    exact ⟨h1, rfl⟩

/-- A PSBT whose transaction is `t`, cut off behind the transaction. -/
def exHead (t : Bytes) : Bytes := PSBT.magic ++ [1, 0, UInt8.ofNat t.length] ++ t

/-- A transaction with an input whose script has a length that is not written in the shortest way, and one with such an output. -/
def exBadIn : Bytes := [2, 0, 0, 0, 1] ++ zeros 36 ++ [0xfd, 1, 0]

def exBadOut : Bytes := [2, 0, 0, 0, 1] ++ zeros 36 ++ [0, 0xff, 0xff, 0xff, 0xff, 1] ++ zeros 8 ++ [0xfd, 1, 0]

set_option maxRecDepth 10000 in
/-- C100: the codes for a wrong transaction are also those defined for wrong input and output maps, which are never used for these; and a transaction that ends early leaves
no trace. -/
theorem C100_codes_ambiguous (junk : Nat → Bytes) (old : Nat) :
    ((runPsbt junk {} old [exHead exBadIn]).1.status = .failed ∧ (runPsbt junk {} old [exHead exBadIn]).2 = psbtIn ∧ (runPsbt junk {} old [exHead exBadIn]).1.sec = 0) ∧
    ((runPsbt junk {} old [exHead exBadOut]).1.status = .failed ∧ (runPsbt junk {} old [exHead exBadOut]).2 = psbtOut ∧ (runPsbt junk {} old [exHead exBadOut]).1.sec = 0) ∧
    ((runPsbt junk {} old [exHead [2, 0, 0, 0, 1]]).1.status = .failed ∧ (runPsbt junk {} old [exHead [2, 0, 0, 0, 1]]).2 = old) := by
  refine ⟨⟨rfl, rfl, rfl⟩, ⟨rfl, rfl, rfl⟩, rfl, rfl⟩

/-! ### Examples -/

theorem pcalm_fresh : PCalm {} := ⟨fun h => absurd rfl h, fun h => absurd rfl h⟩

set_option maxRecDepth 10000 in
/-- The wrong input in two pieces: nothing is written for the first. -/
example : (runTx {} 77 [exBadIn.take 20]).2 = 77 ∧ (runTx {} 77 [exBadIn.take 20, exBadIn.drop 20]).1.status = .failed ∧
    Explains (runTx {} 77 [exBadIn.take 20, exBadIn.drop 20]).1 77 (runTx {} 77 [exBadIn.take 20, exBadIn.drop 20]).2 ∧
    ∃ i ∈ (runTx {} 77 [exBadIn.take 20, exBadIn.drop 20]).1.txIns, i.status = .failed :=
  ⟨(C100_tx_partial [exBadIn.take 20] calm_fresh (by decide) 77).2 (by decide +kernel) (by decide +kernel), by decide +kernel,
    (C100_tx_partial [exBadIn.take 20, exBadIn.drop 20] calm_fresh (by decide) 77).1 (by decide +kernel), by decide +kernel⟩

set_option maxRecDepth 10000 in
/-- Another prefix, and another first key. -/
example (junk : Nat → Bytes) : PExplains (runPsbt junk {} 77 [[0x70, 0x72]]).1 77 1 ∧ PExplains (runPsbt junk {} 77 [PSBT.magic ++ [1, 1, 0]]).1 77 2 := by
  have e1 : (runPsbt junk {} 77 [[0x70, 0x72]]).2 = 1 := rfl
  have e2 : (runPsbt junk {} 77 [PSBT.magic ++ [1, 1, 0]]).2 = 2 := rfl
  have h1 := (C100_psbt_partial junk [[0x70, 0x72]] pcalm_fresh (by decide) 77).1 rfl
  have h2 := (C100_psbt_partial junk [PSBT.magic ++ [1, 1, 0]] pcalm_fresh (by decide) 77).1 rfl
  rw [e1] at h1
  rw [e2] at h2
  exact ⟨h1, h2⟩

/-- Documents that are read without failure. -/
example (junk : Nat → Bytes) (d : PsbtDoc) (hd : d.Ok) (old : Nat) : (runPsbt junk {} old [d.bytes]).2 = old := by
  have h := (C57_parse_partial junk PSBT.clean_fresh d hd []).1
  rw [List.append_nil] at h
  have e : (runPsbt junk {} old [d.bytes]).1 = (PSBT.fromStream junk {} (.of d.bytes)).1 := by rw [runPsbt, runPsbt]
  exact (C100_psbt_partial junk [d.bytes] pcalm_fresh (by decide) old).2 (by rw [e, h]; simp) (by rw [e, h]; simp)

end UB
