import Verif.Lemmas.TxFeed

/-
The transaction reader accepts exactly the serializations.
-/

namespace UB
open Spec

/-- Field sizes with which a transaction can be written and read with the one-byte counts of the code. -/
structure Spec.WireTx (x : Transaction) : Prop where
  version : x.version < 2 ^ 32
  locktime : x.locktime < 2 ^ 32
  ins : ∀ i ∈ x.ins, ValidIn i
  outs : ∀ o ∈ x.outs, ValidOut o
  items : ∀ i ∈ x.ins, i.witness.length < 253 ∧ ∀ d ∈ i.witness, d.length < 2 ^ 31

theorem flatMap_strip (is : List In) : (is.map fun i => { i with witness := [] }).flatMap inBytes = is.flatMap inBytes := by
  induction is with
  | nil => rfl
  | cons i is ih => simp only [List.map_cons, List.flatMap_cons, ih]; rfl

theorem withWitnesses_strip (is : List In) : withWitnesses (is.map fun i => { i with witness := [] }) (is.map (·.witness)) = is := by
  induction is with
  | nil => rfl
  | cons i is ih => simp only [withWitnesses, List.map_cons, List.zipWith_cons_cons] at ih ⊢; rw [ih]

theorem flatMap_map' {α β : Type} (f : β → Bytes) (g : α → β) (xs : List α) : (xs.map g).flatMap f = xs.flatMap fun x => f (g x) := by
  induction xs with
  | nil => rfl
  | cons x xs ih => simp [ih]

theorem readLocktime_complete (v : Nat) (ins : List In) (outs : List Out) (lk : Nat) (h : lk < 2 ^ 32) (rest : Bytes) :
    readLocktime v ins outs (leBytes 4 lk ++ rest) = .ok ⟨v, ins, outs, lk⟩ rest := by
  unfold readLocktime
  have hl : (leBytes 4 lk).length = 4 := by simp
  rw [if_neg (by rw [List.length_append, hl]; omega), List.take_append_of_le_length (by omega), List.take_of_length_le (by omega),
    List.drop_append_of_le_length (by omega), List.drop_of_length_le (by omega), leValue_leBytes, Nat.mod_eq_of_lt (by omega)]
  rfl

/-- The bytes behind the header. -/
theorem readAfterCount_complete (x : Transaction) (h : WireTx x) (ho : x.outs.length < 253) (sw : Bool) (hs : sw = false → ¬ hasWitness x) (rest : Bytes) :
    readAfterCount sw x.version x.ins.length (x.ins.flatMap inBytes ++ (compactSize x.outs.length ++ (x.outs.flatMap outBytes ++
      ((if sw then x.ins.flatMap (fun i => witnessBytes i.witness) else []) ++ (leBytes 4 x.locktime ++ rest))))) = .ok x rest := by
  unfold readAfterCount
  have e1 := (codecMany codecIn x.ins.length).complete (x.ins.map fun i => { i with witness := [] }) (compactSize x.outs.length ++ (x.outs.flatMap outBytes ++
      ((if sw then x.ins.flatMap (fun i => witnessBytes i.witness) else []) ++ (leBytes 4 x.locktime ++ rest)))) ⟨by simp, by
        intro i hi
        obtain ⟨j, hj, rfl⟩ := List.mem_map.mp hi
        have := h.ins j hj
        exact ⟨⟨this.hash, this.index, this.script, this.sequence⟩, rfl⟩⟩
  rw [flatMap_strip] at e1
  rw [e1]
  simp only
  rw [compactSize_small ho]
  unfold readAfterIns
  have e0 : (UInt8.ofNat x.outs.length).toNat = x.outs.length := by simp; omega
  simp only [List.cons_append, List.nil_append, e0]
  rw [(codecMany codecOut x.outs.length).complete x.outs _ ⟨rfl, h.outs⟩]
  simp only
  unfold readTail
  cases sw with
  | false =>
    have hnw := hs rfl
    have em : (x.ins.map fun i => ({ i with witness := [] } : In)) = x.ins := by
      conv_rhs => rw [← List.map_id x.ins]
      apply List.map_congr_left
      intro i hi
      have : i.witness = [] := by
        by_contra hne
        exact hnw ⟨i, hi, hne⟩
      cases i; simp_all
    simp only [Bool.false_eq_true, if_false, List.nil_append]
    rw [em, readLocktime_complete _ _ _ _ h.locktime]
  | true =>
    simp only [if_true]
    have e2 := (codecMany codecWitness x.ins.length).complete (x.ins.map (·.witness)) (leBytes 4 x.locktime ++ rest) ⟨by simp, by
        intro w hw
        obtain ⟨j, hj, rfl⟩ := List.mem_map.mp hw
        exact h.items j hj⟩
    rw [flatMap_map'] at e2
    rw [List.length_map, e2]
    simp only
    rw [withWitnesses_strip, readLocktime_complete _ _ _ _ h.locktime]

theorem readTx_legacy (x : Transaction) (h : WireTx x) (h0 : x.ins ≠ []) (hi : x.ins.length < 253) (ho : x.outs.length < 253) (hw : ¬ hasWitness x) (rest : Bytes) :
    readTx (legacyBytes x ++ rest) = .ok x rest := by
  have hh : Hdr (leBytes 4 x.version ++ [UInt8.ofNat x.ins.length]) false x.ins.length x.version :=
    ⟨leBytes 4 x.version, by simp, by rw [leValue_leBytes, Nat.mod_eq_of_lt (by have := h.version; omega)], by omega,
      Or.inl ⟨rfl, by have := List.length_pos_iff.mpr h0; omega, rfl⟩⟩
  have e := readAfterCount_complete x h ho false (fun _ => hw) rest
  rw [← hh.readTx] at e
  rw [← e]
  unfold legacyBytes
  rw [compactSize_small hi]
  simp [List.append_assoc]

theorem readTx_segwit (x : Transaction) (h : WireTx x) (hi : x.ins.length < 253) (ho : x.outs.length < 253) (rest : Bytes) :
    readTx (segwitBytes x ++ rest) = .ok x rest := by
  have hh : Hdr (leBytes 4 x.version ++ [0, 1, UInt8.ofNat x.ins.length]) true x.ins.length x.version :=
    ⟨leBytes 4 x.version, by simp, by rw [leValue_leBytes, Nat.mod_eq_of_lt (by have := h.version; omega)], by omega, Or.inr ⟨rfl, rfl⟩⟩
  have e := readAfterCount_complete x h ho true (fun h => by cases h) rest
  rw [← hh.readTx] at e
  rw [← e]
  unfold segwitBytes
  rw [compactSize_small hi]
  simp [List.append_assoc]

theorem readTx_complete (x : Transaction) (h : WireTx x) (h0 : x.ins ≠ []) (hi : x.ins.length < 253) (ho : x.outs.length < 253) (rest : Bytes) :
    readTx (txBytes x ++ rest) = .ok x rest := by
  unfold txBytes
  split_ifs with hw
  · exact readTx_segwit x h hi ho rest
  · exact readTx_legacy x h h0 hi ho hw rest

theorem readLocktime_sound {v : Nat} {ins : List In} {outs : List Out} {p : Bytes} {x : Transaction} {r : Bytes} (h : readLocktime v ins outs p = .ok x r) :
    x.version = v ∧ x.ins = ins ∧ x.outs = outs ∧ x.locktime < 2 ^ 32 ∧ p = leBytes 4 x.locktime ++ r := by
  unfold readLocktime at h
  split_ifs at h with h1
  cases h
  refine ⟨rfl, rfl, rfl, ?_, ?_⟩
  · have := leValue_lt (p.take 4)
    have h4 : (p.take 4).length = 4 := by simp; omega
    rw [h4] at this; exact this
  · simp only
    rw [leBytes_take _ 4 (by omega), List.take_append_drop]

theorem withWitnesses_props {is : List In} {ws : List (List Bytes)} (hl : is.length = ws.length) (h1 : ∀ i ∈ is, ValidIn i)
    (h2 : ∀ w ∈ ws, w.length < 253 ∧ ∀ d ∈ w, d.length < 2 ^ 31) :
    (withWitnesses is ws).length = is.length ∧ (withWitnesses is ws).flatMap inBytes = is.flatMap inBytes ∧
    (withWitnesses is ws).flatMap (fun i => witnessBytes i.witness) = ws.flatMap witnessBytes ∧
    ∀ i ∈ withWitnesses is ws, ValidIn i ∧ i.witness.length < 253 ∧ ∀ d ∈ i.witness, d.length < 2 ^ 31 := by
  induction is generalizing ws with
  | nil => cases ws <;> simp_all [withWitnesses]
  | cons i is ih =>
    cases ws with
    | nil => simp at hl
    | cons w ws =>
      obtain ⟨a, b, c, d⟩ := ih (ws := ws) (by simpa using hl) (fun j hj => h1 j (by simp [hj])) (fun j hj => h2 j (by simp [hj]))
      have e : withWitnesses (i :: is) (w :: ws) = { i with witness := w } :: withWitnesses is ws := rfl
      have hi := h1 i (by simp)
      refine ⟨by rw [e]; simp [a], by rw [e]; simp only [List.flatMap_cons, b]; rfl, by rw [e]; simp only [List.flatMap_cons, c], ?_⟩
      intro j hj
      rw [e] at hj
      rcases List.mem_cons.mp hj with rfl | hj
      · exact ⟨⟨hi.hash, hi.index, hi.script, hi.sequence⟩, h2 w (by simp)⟩
      · exact d j hj

theorem byte_ofNat (b : UInt8) : UInt8.ofNat b.toNat = b := by simp

/-- Everything the reader accepts is made up of the pieces of a serialization, with one-byte counts. -/
theorem readAfterCount_sound {sw : Bool} {v n : Nat} {p : Bytes} {x : Transaction} {r : Bytes} (hn : n < 256) (hv : v < 2 ^ 32) (h : readAfterCount sw v n p = .ok x r) :
    WireTx x ∧ x.version = v ∧ x.ins.length = n ∧ x.outs.length < 256 ∧ (sw = false → ¬ hasWitness x) ∧
    p = x.ins.flatMap inBytes ++ ([UInt8.ofNat x.outs.length] ++ (x.outs.flatMap outBytes ++
      ((if sw then x.ins.flatMap (fun i => witnessBytes i.witness) else []) ++ (leBytes 4 x.locktime ++ r)))) := by
  unfold readAfterCount at h
  cases e1 : readMany readIn n p with
  | more => rw [e1] at h; cases h
  | bad => rw [e1] at h; cases h
  | ok is q =>
    rw [e1] at h
    simp only at h
    obtain ⟨a1, a2, a3⟩ := (codecMany codecIn n).sound _ _ _ e1
    unfold readAfterIns at h
    cases q with
    | nil => cases h
    | cons o q =>
      simp only at h
      cases e2 : readMany readOut o.toNat q with
      | more => rw [e2] at h; cases h
      | bad => rw [e2] at h; cases h
      | ok os q2 =>
        rw [e2] at h
        simp only at h
        obtain ⟨b1, b2, b3⟩ := (codecMany codecOut _).sound _ _ _ e2
        have ho := o.toNat_lt
        have eo : UInt8.ofNat os.length = o := by rw [b2]; exact byte_ofNat o
        unfold readTail at h
        cases sw with
        | false =>
          simp only [Bool.false_eq_true, if_false] at h
          obtain ⟨c1, c2, c3, c4, c5⟩ := readLocktime_sound h
          refine ⟨⟨by rw [c1]; exact hv, c4, ?_, ?_, ?_⟩, c1, by rw [c2]; exact a2, by rw [c3]; omega, ?_, ?_⟩
          · rw [c2]; exact fun i hi => (a3 i hi).1
          · rw [c3]; exact b3
          · rw [c2]; intro i hi; rw [(a3 i hi).2]; simp
          · rintro - ⟨i, hi, hne⟩
            rw [c2] at hi
            exact hne (a3 i hi).2
          · rw [a1, b1, c5, c2, c3, eo]; simp
        | true =>
          simp only [if_true] at h
          cases e3 : readMany readWitness is.length q2 with
          | more => rw [e3] at h; cases h
          | bad => rw [e3] at h; cases h
          | ok ws q3 =>
            rw [e3] at h
            simp only at h
            obtain ⟨d1, d2, d3⟩ := (codecMany codecWitness _).sound _ _ _ e3
            obtain ⟨c1, c2, c3, c4, c5⟩ := readLocktime_sound h
            obtain ⟨w1, w2, w3, w4⟩ := withWitnesses_props d2.symm (fun i hi => (a3 i hi).1) d3
            refine ⟨⟨by rw [c1]; exact hv, c4, ?_, ?_, ?_⟩, c1, by rw [c2, w1]; exact a2, by rw [c3]; omega, by simp, ?_⟩
            · rw [c2]; exact fun i hi => (w4 i hi).1
            · rw [c3]; exact b3
            · rw [c2]; exact fun i hi => (w4 i hi).2
            · rw [a1, b1, d1, c5, c2, c3, eo, w2]; simp only [if_true]; rw [w3]; simp

/-- What the transaction reader accepts. -/
theorem readTx_sound {p : Bytes} {x : Transaction} {r : Bytes} (h : readTx p = .ok x r) :
    WireTx x ∧ x.ins.length < 256 ∧ x.outs.length < 256 ∧ ∃ body, p = body ++ r ∧
      (x.ins.length < 253 → x.outs.length < 253 → (body = legacyBytes x ∧ x.ins ≠ [] ∧ ¬ hasWitness x) ∨ body = segwitBytes x) := by
  unfold readTx at h
  split_ifs at h with h4
  have hv : leValue (p.take 4) < 2 ^ 32 := by
    have := leValue_lt (p.take 4)
    have h4 : (p.take 4).length = 4 := by simp; omega
    rw [h4] at this; exact this
  have hp : p = leBytes 4 (leValue (p.take 4)) ++ p.drop 4 := by rw [leBytes_take _ 4 (by omega), List.take_append_drop]
  generalize leValue (p.take 4) = v at *
  cases e : p.drop 4 with
  | nil => rw [e] at h; cases h
  | cons c q =>
    rw [e] at h hp
    simp only at h
    split_ifs at h with hc
    · obtain ⟨a1, a2, a3, a4, a5, a6⟩ := readAfterCount_sound c.toNat_lt hv h
      have hc' : c.toNat ≠ 0 := fun h => hc (UInt8.toNat_inj.mp h)
      refine ⟨a1, by rw [a3]; exact c.toNat_lt, a4, leBytes 4 v ++ [c] ++ x.ins.flatMap inBytes ++ [UInt8.ofNat x.outs.length] ++ x.outs.flatMap outBytes ++ leBytes 4 x.locktime, ?_, ?_⟩
      · rw [hp, a6]; simp
      · intro g1 g2
        left
        refine ⟨?_, ?_, a5 rfl⟩
        · unfold legacyBytes
          rw [compactSize_small g1, compactSize_small g2, a2, a3, byte_ofNat]
        · intro h0
          rw [h0] at a3
          exact hc' a3.symm
    · cases q with
      | nil => cases h
      | cons f q =>
        simp only at h
        split_ifs at h with hf
        cases q with
        | nil => cases h
        | cons n q =>
          simp only at h
          obtain ⟨a1, a2, a3, a4, a5, a6⟩ := readAfterCount_sound n.toNat_lt hv h
          have hc' : c = 0 := by simpa using hc
          have hf' : f = 1 := by simpa using hf
          subst hc' hf'
          refine ⟨a1, by rw [a3]; exact n.toNat_lt, a4, leBytes 4 v ++ [0, 1] ++ [n] ++ x.ins.flatMap inBytes ++ [UInt8.ofNat x.outs.length] ++ x.outs.flatMap outBytes ++
            x.ins.flatMap (fun i => witnessBytes i.witness) ++ leBytes 4 x.locktime, ?_, ?_⟩
          · rw [hp, a6]; simp
          · intro g1 g2
            right
            unfold segwitBytes
            rw [compactSize_small g1, compactSize_small g2, a2, a3, byte_ofNat]

end UB
