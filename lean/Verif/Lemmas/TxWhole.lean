import Verif.Lemmas.TxResume

/-! An object whose status is `PARSING_DONE` after parsing has complete scripts. -/

namespace UB

theorem TxIn.readTail_done (t : TxIn) (br : Nat) (s : PStream) (ht : t.status ≠ .done) :
    (t.readTail br s).1.status = .done → (t.readTail br s).1.scriptSig.status = .done := by
  unfold TxIn.readTail
  intro h
  by_cases h1 : t.scriptSig.status = .failed
  · rw [if_pos h1] at h; cases h
  rw [if_neg h1] at h ⊢
  by_cases h2 : t.scriptSig.status = .ub
  · rw [if_pos h2] at h; cases h
  rw [if_neg h2] at h ⊢
  dsimp only at h ⊢
  generalize s.readN (36 + t.scriptSig.length + 4 - (br + t.bytesParsed)) = z at *
  obtain ⟨q, s1⟩ := z
  dsimp only at h ⊢
  by_cases h3 : q ≠ [] ∧ br + t.bytesParsed < 36 + t.scriptSig.length
  · rw [if_pos h3] at h; cases h
  rw [if_neg h3] at h ⊢
  dsimp only at h ⊢
  split at h
  · rename_i h4; exact h4.1
  · exact absurd h ht

theorem TxIn.fromStream_done (t : TxIn) (s : PStream) (ht : t.status = .done → t.scriptSig.status = .done) :
    (t.fromStream s).1.status = .done → (t.fromStream s).1.scriptSig.status = .done := by
  unfold TxIn.fromStream
  by_cases hst : t.status = .failed ∨ t.status = .ub
  · rw [if_pos hst]; exact ht
  rw [if_neg hst]
  exact TxIn.readTail_done _ _ _ (by
    show t.start.status ≠ .done
    simp [TxIn.start])

theorem TxOut.readTail_done (t : TxOut) (br : Nat) (s : PStream) (ht : t.status ≠ .done) :
    (t.readTail br s).1.status = .done → (t.readTail br s).1.scriptPubkey.status = .done := by
  unfold TxOut.readTail
  intro h
  by_cases h1 : t.scriptPubkey.status = .failed
  · rw [if_pos h1] at h; cases h
  rw [if_neg h1] at h ⊢
  by_cases h2 : t.scriptPubkey.status = .ub
  · rw [if_pos h2] at h; cases h
  rw [if_neg h2] at h ⊢
  dsimp only at h ⊢
  split at h
  · rename_i h4; exact h4.1
  · exact absurd h ht

theorem TxOut.fromStream_done (t : TxOut) (s : PStream) (ht : t.status = .done → t.scriptPubkey.status = .done) :
    (t.fromStream s).1.status = .done → (t.fromStream s).1.scriptPubkey.status = .done := by
  unfold TxOut.fromStream
  by_cases hst : t.status = .failed ∨ t.status = .ub
  · rw [if_pos hst]; exact ht
  rw [if_neg hst]
  exact TxOut.readTail_done _ _ _ (by
    show t.start.status ≠ .done
    simp [TxOut.start])

namespace Tx

/-- Inputs and outputs that are complete have complete scripts. -/
def Whole (v : Tx) : Prop := (∀ i ∈ v.txIns, i.status = .done → i.scriptSig.status = .done) ∧ ∀ o ∈ v.txOuts, o.status = .done → o.scriptPubkey.status = .done

/-- All scripts are complete. -/
def Scripts (v : Tx) : Prop := (∀ i ∈ v.txIns, i.scriptSig.status = .done) ∧ ∀ o ∈ v.txOuts, o.scriptPubkey.status = .done

/-- `Whole`, and all scripts are complete if the transaction is. -/
def Closed (v : Tx) : Prop := v.Whole ∧ (v.status = .done → v.Scripts)

theorem readLock_closed (v : Tx) (br : Nat) (s : PStream) (h : v.Whole) (hs : v.status ≠ .done) : (v.readLock br s).1.Closed := by
  unfold readLock
  dsimp only
  generalize s.readN (v.lockOffset + 4 - (br + v.bytesParsed)) = z at *
  obtain ⟨q, s1⟩ := z
  dsimp only
  by_cases h1 : q ≠ [] ∧ br + v.bytesParsed < v.lockOffset
  · rw [if_pos h1]
    exact ⟨h, fun c => by cases c⟩
  rw [if_neg h1]
  refine ⟨h, fun c => ?_⟩
  unfold finish at c
  dsimp only at c
  split at c
  · rename_i h2
    have h3 := h2.2
    unfold completed at h3
    rw [Bool.and_eq_true, List.all_eq_true, List.all_eq_true] at h3
    refine ⟨fun i hi => h.1 i hi ?_, fun o ho => h.2 o ho ?_⟩
    · have := h3.1 i hi
      simp only [decide_eq_true_eq] at this
      exact this.1
    · simpa using h3.2 o ho
  · exact absurd c hs

theorem contAll_status {α : Type} (f : α → PStream → α × Nat × PStream) (st : α → Status) (xs : List α) (s : PStream) {u : Status}
    (h : (contAll f st xs s).2.2.2 = some u) : u ≠ .done := by
  unfold contAll at h
  dsimp only at h
  split at h
  · injection h with h; rw [← h]; simp
  · split at h
    · cases h
    · injection h with h; rw [← h]; simp

theorem finish_closed (v : Tx) {st : Status} (br : Nat) (s : PStream) (h : v.Whole) (hs : st ≠ .done) : (v.finish st br s).1.Closed :=
  ⟨h, fun c => absurd c hs⟩

theorem readWitnesses_closed (v : Tx) (br : Nat) (s : PStream) (h : v.Whole) (hs : v.status ≠ .done) : (v.readWitnesses br s).1.Closed := by
  unfold readWitnesses
  by_cases hf : v.segwitFlag > 0
  · rw [if_pos hf]
    have h1 : ∀ i ∈ (if br + v.bytesParsed = v.witOffset then parseAll parseWitness v.txIns s else (v.txIns, 0, s)).1, i.status = .done → i.scriptSig.status = .done := by
      split
      · exact parseAll_each (Q := fun i => i.status = .done → i.scriptSig.status = .done) (fun x s h => h) _ _ h.1
      · exact h.1
    generalize (if br + v.bytesParsed = v.witOffset then parseAll parseWitness v.txIns s else (v.txIns, 0, s)) = z at *
    obtain ⟨ins, n, s1⟩ := z
    dsimp only at h1 ⊢
    have h2 := contLoop_each (f := parseWitness) (st := fun i => i.witness.status) (R := fun i => i.status = .done → i.scriptSig.status = .done) (fun x s h => h) ins s1 h1
    have h3 := fun u => contAll_status parseWitness (fun i => i.witness.status) ins s1 (u := u)
    unfold contAll at h3 ⊢
    generalize contLoop parseWitness (fun i => i.witness.status) ins s1 = z at *
    obtain ⟨ins2, m, s2, good⟩ := z
    dsimp only at h2 h3 ⊢
    generalize (if (ins2.any fun x => x.witness.status = .ub) = true then some Status.ub else if good = true then none else some Status.failed) = r at *
    cases r with
    | none => exact readLock_closed _ _ _ ⟨h2, h.2⟩ hs
    | some u => exact finish_closed _ _ _ ⟨h2, h.2⟩ (h3 u rfl)
  · rw [if_neg hf]
    exact readLock_closed _ _ _ h hs

theorem readOuts_closed (v : Tx) (br : Nat) (s : PStream) (h : v.Whole) (hs : v.status ≠ .done) : (v.readOuts br s).1.Closed := by
  unfold readOuts
  have h1 : (v.readOutCount br s).1.Whole ∧ (v.readOutCount br s).1.status = v.status := by
    unfold readOutCount
    split
    · dsimp only
      refine ⟨⟨h.1, parseAll_each (Q := fun o : TxOut => o.status = .done → o.scriptPubkey.status = .done) (fun x s h => TxOut.fromStream_done x s h) _ _ ?_⟩, rfl⟩
      intro o ho
      rw [List.eq_of_mem_replicate ho]
      exact fun _ => rfl
    · exact ⟨h, rfl⟩
  generalize v.readOutCount br s = z at *
  obtain ⟨v1, br1, s1⟩ := z
  dsimp only at h1 ⊢
  obtain ⟨h1, e1⟩ := h1
  have h2 := contLoop_each (f := TxOut.fromStream) (st := fun i => i.status) (R := fun o => o.status = .done → o.scriptPubkey.status = .done) (fun x s h => TxOut.fromStream_done x s h) v1.txOuts s1 h1.2
  have h3 := fun u => contAll_status TxOut.fromStream (fun i => i.status) v1.txOuts s1 (u := u)
  unfold contAll at h3 ⊢
  generalize contLoop TxOut.fromStream (fun i => i.status) v1.txOuts s1 = z at *
  obtain ⟨outs, m, s2, good⟩ := z
  dsimp only at h2 h3 ⊢
  generalize (if (outs.any fun x => x.status = .ub) = true then some Status.ub else if good = true then none else some Status.failed) = r at *
  cases r with
  | none => exact readWitnesses_closed _ _ _ ⟨h1.1, h2⟩ (by rw [← e1] at hs; exact hs)
  | some u => exact finish_closed _ _ _ ⟨h1.1, h2⟩ (h3 u rfl)

theorem readIns_closed (v : Tx) (br : Nat) (s : PStream) (h : v.Whole) (hs : v.status ≠ .done) : (v.readIns br s).1.Closed := by
  unfold readIns
  have h2 := contLoop_each (f := TxIn.fromStream) (st := fun i => i.status) (R := fun o => o.status = .done → o.scriptSig.status = .done) (fun x s h => TxIn.fromStream_done x s h) v.txIns s h.1
  have h3 := fun u => contAll_status TxIn.fromStream (fun i => i.status) v.txIns s (u := u)
  unfold contAll at h3 ⊢
  generalize contLoop TxIn.fromStream (fun i => i.status) v.txIns s = z at *
  obtain ⟨ins, m, s2, good⟩ := z
  dsimp only at h2 h3 ⊢
  generalize (if (ins.any fun x => x.status = .ub) = true then some Status.ub else if good = true then none else some Status.failed) = r at *
  cases r with
  | none => exact readOuts_closed _ _ _ ⟨h2, h.2⟩ hs
  | some u => exact finish_closed _ _ _ ⟨h2, h.2⟩ (h3 u rfl)

theorem new_whole (n : Nat) (s : PStream) : ∀ i ∈ (parseAll TxIn.fromStream (List.replicate n {}) s).1, i.status = .done → i.scriptSig.status = .done :=
  parseAll_each (Q := fun o : TxIn => o.status = .done → o.scriptSig.status = .done) (fun x s h => TxIn.fromStream_done x s h) _ _ fun i hi => by
    rw [List.eq_of_mem_replicate hi]
    exact fun _ => rfl

/-- Whatever the bytes: a transaction that is complete after parsing has complete scripts. -/
theorem fromStream_closed (v : Tx) (s : PStream) (h : v.Closed) : (v.fromStream s).1.Closed := by
  unfold fromStream
  by_cases hst : v.status = .failed ∨ v.status = .ub
  · rw [if_pos hst]; exact h
  rw [if_neg hst]
  have h0 : v.start.Whole ∧ v.start.status = .incomplete := by
    refine ⟨?_, rfl⟩
    unfold start
    dsimp only
    split
    · exact ⟨fun i hi => by simp at hi, fun i hi => by simp at hi⟩
    · exact h.1
  generalize v.start = v0 at *
  have h1 : (v0.readVersion s).1.Whole ∧ (v0.readVersion s).1.status = .incomplete := by
    unfold readVersion
    dsimp only
    split
    · split
      · exact h0
      · exact ⟨⟨new_whole _ _, h0.1.2⟩, h0.2⟩
    · exact h0
  generalize v0.readVersion s = z at *
  obtain ⟨v1, br1, s1⟩ := z
  dsimp only at h1 ⊢
  generalize v1.readFlag br1 s1 = z at *
  obtain ⟨good, br2, s2⟩ := z
  dsimp only
  cases good with
  | false => exact finish_closed _ _ _ h1.1 (by simp)
  | true =>
    rw [if_pos rfl]
    have h2 : (v1.readSegwitCount br2 s2).1.Whole ∧ (v1.readSegwitCount br2 s2).1.status = .incomplete := by
      unfold readSegwitCount
      split
      · exact ⟨⟨new_whole _ _, h1.1.2⟩, h1.2⟩
      · exact h1
    generalize v1.readSegwitCount br2 s2 = z at *
    obtain ⟨v2, br3, s3⟩ := z
    exact readIns_closed _ _ _ h2.1 (by rw [h2.2]; simp)

end Tx
end UB
