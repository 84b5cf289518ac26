import Verif.Lemmas.TxSettle

/-! Between two calls of `Tx::from_stream`: no witness that has been read is ever read again. -/

namespace UB

theorem parseAll_each {γ : Type} {f : γ → PStream → γ × Nat × PStream} {Q R : γ → Prop} (hf : ∀ x s, Q x → R (f x s).1) : ∀ (xs : List γ) (s : PStream),
    (∀ x ∈ xs, Q x) → ∀ x ∈ (Tx.parseAll f xs s).1, R x := by
  intro xs
  induction xs with
  | nil => intro s _ x hx; simp [Tx.parseAll] at hx
  | cons x xs ih =>
    intro s h y hy
    rw [Tx.parseAll] at hy
    rcases List.mem_cons.1 hy with rfl | hy
    · exact hf x s (h x (by simp))
    · exact ih _ (fun z hz => h z (by simp [hz])) y hy

theorem parseAll_avail {γ : Type} {f : γ → PStream → γ × Nat × PStream} {Fed : γ → Prop} (hf : ∀ x s, Fed x → (f x s).2.2.avail = true → s.avail = true) :
    ∀ (xs : List γ) (s : PStream), (∀ x ∈ xs, Fed x) → (Tx.parseAll f xs s).2.2.avail = true → s.avail = true := by
  intro xs
  induction xs with
  | nil => intro s _ h; exact h
  | cons x xs ih =>
    intro s hF h
    rw [Tx.parseAll] at h
    exact hf x s (hF x (by simp)) (ih _ (fun y hy => hF y (by simp [hy])) h)

theorem contLoop_each {γ : Type} {f : γ → PStream → γ × Nat × PStream} {st : γ → Status} {R : γ → Prop} (hf : ∀ x s, R x → R (f x s).1) :
    ∀ (xs : List γ) (s : PStream), (∀ x ∈ xs, R x) → ∀ x ∈ (Tx.contLoop f st xs s).1, R x := by
  intro xs
  induction xs with
  | nil => intro s _ x hx; simp [Tx.contLoop] at hx
  | cons x xs ih =>
    intro s h y hy
    rw [Tx.contLoop] at hy
    have hx : R (if s.avail = true ∧ st x = .incomplete then f x s else (x, 0, s)).1 := by
      split
      · exact hf x s (h x (by simp))
      · exact h x (by simp)
    generalize (if s.avail = true ∧ st x = .incomplete then f x s else (x, 0, s)) = z at *
    obtain ⟨x1, n, s1⟩ := z
    dsimp only at hx hy
    split at hy
    · rcases List.mem_cons.1 hy with rfl | hy
      · exact hx
      · exact h y (by simp [hy])
    · rcases List.mem_cons.1 hy with rfl | hy
      · exact hx
      · exact ih _ (fun z hz => h z (by simp [hz])) y hy

theorem parseAll_same {γ δ : Type} {f : γ → PStream → γ × Nat × PStream} {g : γ → δ} (hf : ∀ x s, g (f x s).1 = g x) : ∀ (xs : List γ) (s : PStream),
    (Tx.parseAll f xs s).1.map g = xs.map g := by
  intro xs
  induction xs with
  | nil => intro s; rfl
  | cons x xs ih =>
    intro s
    rw [Tx.parseAll]
    simp only [List.map_cons]
    rw [hf, ih]

theorem contLoop_same {γ δ : Type} {f : γ → PStream → γ × Nat × PStream} {st : γ → Status} {g : γ → δ} (hf : ∀ x s, g (f x s).1 = g x) : ∀ (xs : List γ) (s : PStream),
    (Tx.contLoop f st xs s).1.map g = xs.map g := by
  intro xs
  induction xs with
  | nil => intro s; rfl
  | cons x xs ih =>
    intro s
    rw [Tx.contLoop]
    have hx : g (if s.avail = true ∧ st x = .incomplete then f x s else (x, 0, s)).1 = g x := by
      split
      · exact hf x s
      · rfl
    generalize (if s.avail = true ∧ st x = .incomplete then f x s else (x, 0, s)) = z at *
    obtain ⟨x1, n, s1⟩ := z
    dsimp only at hx ⊢
    split
    · simp [hx]
    · simp only [List.map_cons]
      rw [hx, ih]

theorem contLoop_stops {γ : Type} {f : γ → PStream → γ × Nat × PStream} {st : γ → Status} : ∀ (xs : List γ) (s : PStream),
    (∃ x ∈ xs, st x = .failed ∨ st x = .ub) → (Tx.contLoop f st xs s).2.2.2 = false := by
  intro xs
  induction xs with
  | nil => rintro s ⟨x, hx, -⟩; simp at hx
  | cons x xs ih =>
    rintro s ⟨y, hy, hst⟩
    rw [Tx.contLoop]
    have hx : y = x → (if s.avail = true ∧ st x = .incomplete then f x s else (x, 0, s)).1 = x := by
      rintro rfl
      rw [if_neg]
      rintro ⟨-, c⟩
      rw [c] at hst
      simp at hst
    generalize (if s.avail = true ∧ st x = .incomplete then f x s else (x, 0, s)) = z at *
    obtain ⟨x1, n, s1⟩ := z
    dsimp only at hx ⊢
    split
    · rfl
    · rename_i hn
      rcases List.mem_cons.1 hy with e | hy
      · rw [hx e, ← e] at hn
        exact absurd hst hn
      · exact ih s1 ⟨y, hy, hst⟩

namespace Tx

/-- All inputs and outputs are complete, or never to be completed. -/
def Settled (v : Tx) : Prop := (∀ i ∈ v.txIns, i.Settled) ∧ ∀ o ∈ v.txOuts, o.Settled

/-- The state at the position `pos`. -/
structure Good (v : Tx) (pos : Nat) : Prop where
  flag : v.segwitFlag > 0 → 5 ≤ pos
  ins : ∀ i ∈ v.txIns, i.scriptSig.Fed
  outs : ∀ o ∈ v.txOuts, o.scriptPubkey.Fed
  inpos : v.txIns ≠ [] → 5 ≤ pos ∧ (v.segwitFlag > 0 → 7 ≤ pos)
  outpos : v.txOuts ≠ [] → (∀ i ∈ v.txIns, i.Settled) ∧ v.outOffset < pos
  wit : (∀ i ∈ v.txIns, i.witness = {}) ∨ (v.Settled ∧ v.witOffset < pos)

/-- The same at a later position. -/
theorem Good.later {v : Tx} {pos pos' : Nat} (g : v.Good pos) (h : pos ≤ pos') : v.Good pos' where
  flag := fun hf => Nat.le_trans (g.flag hf) h
  ins := g.ins
  outs := g.outs
  inpos := fun hi => ⟨Nat.le_trans (g.inpos hi).1 h, fun hf => Nat.le_trans ((g.inpos hi).2 hf) h⟩
  outpos := fun ho => ⟨(g.outpos ho).1, Nat.lt_of_lt_of_le (g.outpos ho).2 h⟩
  wit := g.wit.imp id fun hw => ⟨hw.1, Nat.lt_of_lt_of_le hw.2 h⟩

/-- The state between two calls. -/
def Steady (v : Tx) : Prop := v.status = .incomplete → v.Good v.bytesParsed

theorem readLock_steady (v : Tx) (br : Nat) (s : PStream) (g : v.Good (br + v.bytesParsed)) : (v.readLock br s).1.Steady := by
  unfold readLock
  dsimp only
  generalize s.readN _ = z
  obtain ⟨q, s1⟩ := z
  dsimp only
  split
  · intro c; cases c
  · intro _
    obtain ⟨a, b, c, d, e, f⟩ := g.later (show br + v.bytesParsed ≤ v.bytesParsed + (br + q.length) by omega)
    exact ⟨a, b, c, d, e, f⟩

theorem _root_.UB.Witness.loop_count : ∀ (fuel : Nat) (w : Witness) (br : Nat) (s : PStream), (Witness.loop fuel w br s).1.status = .ub ∨ br ≤ (Witness.loop fuel w br s).2.1 := by
  intro fuel
  induction fuel with
  | zero => intro w br s; exact Or.inr (Nat.le_refl _)
  | succ fuel ih =>
    intro w br s
    rw [Witness.loop]
    split
    · split
      · exact Or.inl rfl
      · right; dsimp only; omega
      · rename_i w' cr s' _
        rcases ih w' (br + cr) s' with h | h
        · exact Or.inl h
        · exact Or.inr (by omega)
    · exact Or.inr (Nat.le_refl _)

/-- A new witness. -/
theorem _root_.UB.Witness.fromStream_new (s : PStream) : (s.avail = false → (({} : Witness).fromStream s).1.status = .failed) ∧
    (s.avail = true → (({} : Witness).fromStream s).1.status = .ub ∨ 0 < (({} : Witness).fromStream s).2.1) := by
  refine ⟨fun h => ?_, fun h => ?_⟩
  · unfold Witness.fromStream
    rw [if_neg (by simp)]
    dsimp only
    rw [if_neg (by simp [h])]
    rfl
  · unfold Witness.fromStream
    rw [if_neg (by simp)]
    dsimp only
    rw [if_pos ⟨h, rfl⟩]
    generalize s.readByte = z
    obtain ⟨b, s1⟩ := z
    dsimp only
    split
    · unfold Witness.fromStream.body
      split
      · right; dsimp only; omega
      · rcases Witness.loop_count _ _ 1 s1 with h | h
        · exact Or.inl h
        · right
          omega
    · right; dsimp only; omega

theorem parseWitness_settled (i : TxIn) (s : PStream) : i.Settled → (parseWitness i s).1.Settled := fun h => h

theorem readWitnesses_steady (v : Tx) (br : Nat) (s : PStream) (g : v.Good (br + v.bytesParsed)) (hs : s.avail = true → v.Settled) :
    (v.readWitnesses br s).1.Steady := by
  unfold readWitnesses
  by_cases hf : v.segwitFlag > 0
  swap
  · rw [if_neg hf]
    exact readLock_steady v br s g
  rw [if_pos hf]
  dsimp only
  have finF : ∀ (t : Tx) (st : Status) (n : Nat) (s : PStream), st ≠ .incomplete → (t.finish st n s).1.Steady := fun t st n s h c => absurd c h
  -- the state after the first pass
  have F : ((if br + v.bytesParsed = v.witOffset then parseAll parseWitness v.txIns s else (v.txIns, 0, s)).1.any fun i => i.witness.status = .ub ∨ i.witness.status = .failed) = true ∨
      ({ v with txIns := (if br + v.bytesParsed = v.witOffset then parseAll parseWitness v.txIns s else (v.txIns, 0, s)).1 } : Tx).Good
        (br + (if br + v.bytesParsed = v.witOffset then parseAll parseWitness v.txIns s else (v.txIns, 0, s)).2.1 + v.bytesParsed) := by
    by_cases hc : br + v.bytesParsed = v.witOffset
    · rw [if_pos hc]
      rcases g.wit with h | ⟨-, h⟩
      swap
      · omega
      cases hi : v.txIns with
      | nil =>
        right
        have e : ({ v with txIns := (parseAll parseWitness [] s).1 } : Tx) = v := by
          show ({ v with txIns := [] } : Tx) = v
          rw [← hi]
        rw [e]
        exact g.later (by dsimp only [parseAll]; omega)
      | cons x xs =>
        have hx : x.witness = {} := h x (by simp [hi])
        obtain ⟨w1, w2⟩ := Witness.fromStream_new s
        have e1 : (parseWitness x s).1.witness = (({} : Witness).fromStream s).1 := by unfold parseWitness; rw [hx]
        have e2 : (parseWitness x s).2.1 = (({} : Witness).fromStream s).2.1 := by unfold parseWitness; rw [hx]
        cases ha : s.avail with
        | false =>
          left
          rw [List.any_eq_true]
          exact ⟨(parseWitness x s).1, by simp [parseAll], by rw [e1, w1 ha]; simp⟩
        | true =>
          rcases w2 ha with hu | hp
          · left
            rw [List.any_eq_true]
            exact ⟨(parseWitness x s).1, by simp [parseAll], by rw [e1, hu]; simp⟩
          · right
            have hset := hs ha
            rw [← hi]
            have hlen : (parseAll parseWitness v.txIns s).1.map (·.length) = v.txIns.map (·.length) := parseAll_same (fun _ _ => rfl) _ _
            have hpos : 0 < (parseAll parseWitness v.txIns s).2.1 := by
              rw [hi, parseAll]
              dsimp only
              rw [e2]
              omega
            have hne : v.txIns ≠ [] := by rw [hi]; simp
            refine ⟨fun h => by have := g.flag h; omega, ?_, g.outs, fun _ => ?_, fun ho => ⟨?_, ?_⟩, Or.inr ⟨⟨?_, hset.2⟩, ?_⟩⟩
            · exact parseAll_each (Q := fun i => i.scriptSig.Fed) (fun _ _ h => h) _ _ g.ins
            · have := g.inpos hne
              exact ⟨by omega, fun hf => by have := this.2 hf; omega⟩
            · exact parseAll_each (Q := TxIn.Settled) (fun _ _ h => h) _ _ hset.1
            · have := (g.outpos ho).2
              unfold outOffset at this ⊢
              dsimp only
              rw [hlen]
              omega
            · exact parseAll_each (Q := TxIn.Settled) (fun _ _ h => h) _ _ hset.1
            · have : ({ v with txIns := (parseAll parseWitness v.txIns s).1 } : Tx).witOffset = v.witOffset := by
                unfold witOffset outOffset
                dsimp only
                rw [hlen]
              rw [this]
              omega
    · rw [if_neg hc]
      right
      exact g
  generalize (if br + v.bytesParsed = v.witOffset then parseAll parseWitness v.txIns s else (v.txIns, 0, s)) = z at *
  obtain ⟨ins1, n, s1⟩ := z
  dsimp only at F ⊢
  unfold contAll
  have stp := contLoop_stops (f := parseWitness) (st := fun i => i.witness.status) ins1 s1
  have fed := contLoop_each (f := parseWitness) (st := fun i => i.witness.status) (R := fun i => i.scriptSig.Fed) (fun _ _ h => h) ins1 s1
  have set := contLoop_each (f := parseWitness) (st := fun i => i.witness.status) (R := TxIn.Settled) (fun _ _ h => h) ins1 s1
  have len := contLoop_same (f := parseWitness) (st := fun i => i.witness.status) (g := TxIn.length) (fun _ _ => rfl) ins1 s1
  have stl := contLoop_still (f := parseWitness) (st := fun i => i.witness.status) ins1 s1
  generalize contLoop parseWitness (fun i => i.witness.status) ins1 s1 = z at *
  obtain ⟨ins2, m, s2, good⟩ := z
  dsimp only at stp fed set len stl ⊢
  by_cases hany : (ins2.any fun x => decide (x.witness.status = .ub)) = true
  · rw [if_pos hany]
    exact finF _ _ _ _ (by simp)
  rw [if_neg hany]
  cases good with
  | false => exact finF _ _ _ _ (by simp)
  | true =>
    rw [if_pos rfl]
    dsimp only
    rcases F with F | F
    · rw [List.any_eq_true] at F
      obtain ⟨x, hx, hst⟩ := F
      have := stp ⟨x, hx, by simpa [or_comm] using hst⟩
      cases this
    · have F' := F.later (show br + n + v.bytesParsed ≤ br + n + m + v.bytesParsed by omega)
      have oo : ({ v with txIns := ins2 } : Tx).outOffset = ({ v with txIns := ins1 } : Tx).outOffset := by
        unfold outOffset
        dsimp only
        rw [len]
      refine readLock_steady _ _ _ ⟨F'.flag, fed F.ins, F.outs, fun hi => F'.inpos fun c => hi ?_, fun ho => ⟨set (F'.outpos ho).1, ?_⟩, ?_⟩
      · have := congrArg List.length len
        simp only [List.length_map] at this
        dsimp only at c ⊢
        rw [c] at this
        exact List.length_eq_zero_iff.1 this
      · have := (F'.outpos ho).2
        dsimp only at this oo ⊢
        rw [oo]
        exact this
      rcases F.wit with h | ⟨h1, h2⟩
      · have e := stl fun x hx => Or.inl (by rw [h x hx])
        injection e with e _
        subst e
        exact Or.inl h
      · refine Or.inr ⟨⟨set h1.1, h1.2⟩, ?_⟩
        have : ({ v with txIns := ins2 } : Tx).witOffset = ({ v with txIns := ins1 } : Tx).witOffset := by
          unfold witOffset outOffset
          dsimp only
          rw [len]
        dsimp only at h2 this ⊢
        rw [this]
        omega

theorem readOutCount_good (v : Tx) (br : Nat) (s : PStream) (g : v.Good (br + v.bytesParsed)) (hs : s.avail = true → ∀ i ∈ v.txIns, i.Settled) :
    (v.readOutCount br s).1.Good ((v.readOutCount br s).2.1 + v.bytesParsed) ∧ ((v.readOutCount br s).2.2.avail = true → s.avail = true) ∧
      (v.readOutCount br s).1.txIns = v.txIns ∧ (v.readOutCount br s).1.bytesParsed = v.bytesParsed := by
  unfold readOutCount
  by_cases hc : s.avail = true ∧ br + v.bytesParsed = v.outOffset
  · rw [if_pos hc]
    rcases g.wit with h | ⟨-, h⟩
    · generalize s.readByte = z
      obtain ⟨c, s1⟩ := z
      dsimp only
      refine ⟨⟨fun h => by have := g.flag h; omega, g.ins, ?_, fun hi => ?_, fun _ => ⟨hs hc.1, ?_⟩, Or.inl h⟩, fun _ => hc.1, rfl, rfl⟩
      rotate_left
      · have := g.inpos hi
        exact ⟨by omega, fun hf => by have := this.2 hf; omega⟩
      · have : v.outOffset < br + 1 + (parseAll TxOut.fromStream (List.replicate c.toNat {}) s1).2.1 + v.bytesParsed := by omega
        exact this
      refine parseAll_each (Q := fun o => o.scriptPubkey.Fed) (fun x s h => (TxOut.fromStream_ends x s h).1) _ _ fun o ho => ?_
      rw [List.eq_of_mem_replicate ho]
      intro c
      cases c
    · unfold witOffset at h
      omega
  · rw [if_neg hc]
    exact ⟨g, id, rfl, rfl⟩

theorem readOuts_steady (v : Tx) (br : Nat) (s : PStream) (g : v.Good (br + v.bytesParsed)) (hs : s.avail = true → ∀ i ∈ v.txIns, i.Settled) :
    (v.readOuts br s).1.Steady := by
  unfold readOuts
  obtain ⟨g1, g2, g3, g4⟩ := readOutCount_good v br s g hs
  generalize v.readOutCount br s = z at *
  obtain ⟨v1, br1, s1⟩ := z
  dsimp only at g1 g2 g3 g4 ⊢
  unfold contAll
  have fed := contLoop_each (f := TxOut.fromStream) (st := fun i => i.status) (R := fun i => i.scriptPubkey.Fed) (fun x s h => (TxOut.fromStream_ends x s h).1) v1.txOuts s1 g1.outs
  have stl := contLoop_still (f := TxOut.fromStream) (st := fun i => i.status) v1.txOuts s1
  have len := contLoop_length (f := TxOut.fromStream) (st := fun i => i.status) v1.txOuts s1
  have set := contLoop_settles (f := TxOut.fromStream) (st := fun i => i.status) (Fed := fun i => i.scriptPubkey.Fed) (S := TxOut.Settled)
    (fun x s h => (TxOut.fromStream_ends x s h).2) v1.txOuts s1 g1.outs
  generalize contLoop TxOut.fromStream (fun i => i.status) v1.txOuts s1 = z at *
  obtain ⟨outs2, m, s2, good⟩ := z
  dsimp only at fed stl len set ⊢
  by_cases hany : (outs2.any fun x => decide (x.status = .ub)) = true
  · rw [if_pos hany]
    intro c; cases c
  rw [if_neg hany]
  cases good with
  | false => intro c; cases c
  | true =>
    rw [if_pos rfl]
    dsimp only
    have g5 := g1.later (show br1 + v.bytesParsed ≤ br1 + m + v1.bytesParsed by rw [g4]; omega)
    refine readWitnesses_steady _ _ _ ⟨g5.flag, g1.ins, fed, g5.inpos, fun ho => g5.outpos fun c => ho ?_, ?_⟩ fun ha => ?_
    · rw [c] at len
      exact List.length_eq_zero_iff.1 len
    · rcases g1.wit with h | ⟨h1, h2⟩
      · exact Or.inl h
      · have e := stl fun x hx => by
          rcases h1.2 x hx with h | h
          · exact Or.inl h
          · exact Or.inr ⟨h.1, fun s => (h1.2 x hx).stays h.1 s⟩
        injection e with e _
        subst e
        refine Or.inr ⟨h1, ?_⟩
        have : v1.witOffset < br1 + m + v1.bytesParsed := by rw [g4]; omega
        exact this
    · obtain ⟨k1, k2⟩ := set rfl ha
      refine ⟨fun i hi => hs (g2 k1) i (by rw [← g3]; exact hi), fun o ho => ?_⟩
      rcases k2 o ho with h | h
      · exact Or.inl h
      · exact h.2

theorem readIns_steady (v : Tx) (br : Nat) (s : PStream) (g : v.Good (br + v.bytesParsed)) : (v.readIns br s).1.Steady := by
  unfold readIns
  unfold contAll
  have fed := contLoop_each (f := TxIn.fromStream) (st := fun i => i.status) (R := fun i => i.scriptSig.Fed) (fun x s h => (TxIn.fromStream_ends x s h).1) v.txIns s g.ins
  have new := contLoop_each (f := TxIn.fromStream) (st := fun i => i.status) (R := fun i => i.witness = {}) (fun x s h => by rw [TxIn.fromStream_witness]; exact h) v.txIns s
  have stl := contLoop_still (f := TxIn.fromStream) (st := fun i => i.status) v.txIns s
  have len := contLoop_length (f := TxIn.fromStream) (st := fun i => i.status) v.txIns s
  have set := contLoop_settles (f := TxIn.fromStream) (st := fun i => i.status) (Fed := fun i => i.scriptSig.Fed) (S := TxIn.Settled)
    (fun x s h => (TxIn.fromStream_ends x s h).2) v.txIns s g.ins
  generalize contLoop TxIn.fromStream (fun i => i.status) v.txIns s = z at *
  obtain ⟨ins2, m, s2, good⟩ := z
  dsimp only at fed new stl len set ⊢
  by_cases hany : (ins2.any fun x => decide (x.status = .ub)) = true
  · rw [if_pos hany]
    intro c; cases c
  rw [if_neg hany]
  cases good with
  | false => intro c; cases c
  | true =>
    rw [if_pos rfl]
    dsimp only
    have stl' : (∀ i ∈ v.txIns, i.Settled) → ins2 = v.txIns := by
      intro h1
      have e := stl fun x hx => by
        rcases h1 x hx with h | h
        · exact Or.inl h
        · exact Or.inr ⟨h.1, fun s => (h1 x hx).stays h.1 s⟩
      injection e
    have g5 := g.later (show br + v.bytesParsed ≤ br + m + v.bytesParsed by omega)
    refine readOuts_steady _ _ _ ⟨g5.flag, fed, g.outs, fun hi => g5.inpos fun c => hi ?_, fun ho => ?_, ?_⟩ fun ha i hi => ?_
    · rw [c] at len
      exact List.length_eq_zero_iff.1 len
    · have q := g5.outpos ho
      have e := stl' q.1
      subst e
      exact q
    · rcases g.wit with h | ⟨h1, h2⟩
      · exact Or.inl (new h)
      · have e := stl' h1.1
        subst e
        refine Or.inr ⟨h1, ?_⟩
        have : v.witOffset < br + m + v.bytesParsed := by omega
        exact this
    · obtain ⟨k1, k2⟩ := set rfl ha
      rcases k2 i hi with h | h
      · exact Or.inl h
      · exact h.2

theorem newIns_good {n : Nat} {s : PStream} : (∀ i ∈ (parseAll TxIn.fromStream (List.replicate n {}) s).1, i.scriptSig.Fed) ∧
    ∀ i ∈ (parseAll TxIn.fromStream (List.replicate n {}) s).1, i.witness = {} := by
  refine ⟨parseAll_each (Q := fun i => i.scriptSig.Fed) (fun x s h => (TxIn.fromStream_ends x s h).1) _ _ fun o ho => ?_,
    parseAll_each (Q := fun i => i.witness = {}) (fun x s h => by rw [TxIn.fromStream_witness]; exact h) _ _ fun o ho => ?_⟩
  · rw [List.eq_of_mem_replicate ho]
    intro c
    cases c
  · rw [List.eq_of_mem_replicate ho]

theorem readVersion_good (v : Tx) (s : PStream) (g : v.Good v.bytesParsed) :
    (v.readVersion s).1.Good ((v.readVersion s).2.1 + v.bytesParsed) ∧ (v.readVersion s).1.bytesParsed = v.bytesParsed := by
  unfold readVersion
  generalize s.readN (4 - v.bytesParsed) = z
  obtain ⟨q, s1⟩ := z
  dsimp only
  by_cases hc : s1.avail = true ∧ q.length + v.bytesParsed = 4
  · rw [if_pos hc]
    generalize s1.readByte = z
    obtain ⟨c, s2⟩ := z
    have hw : ¬ (v.witOffset < v.bytesParsed) := by
      unfold witOffset outOffset
      omega
    have h0 : v.segwitFlag = 0 := by
      by_contra c
      have := g.flag (Nat.pos_of_ne_zero c)
      omega
    dsimp only
    by_cases h00 : c = 0
    · rw [if_pos h00]
      refine ⟨⟨fun _ => by dsimp only; omega, g.ins, g.outs, fun hi => absurd (g.inpos hi).1 (by omega), fun ho => absurd (g.outpos ho).2 (by unfold outOffset; omega), ?_⟩, rfl⟩
      rcases g.wit with h | ⟨-, h⟩
      · exact Or.inl h
      · exact absurd h hw
    · rw [if_neg h00]
      refine ⟨⟨fun h => ?_, newIns_good.1, g.outs, fun _ => ⟨by dsimp only; omega, fun h => ?_⟩, fun ho => absurd (g.outpos ho).2 (by unfold outOffset; omega), Or.inl newIns_good.2⟩, rfl⟩
      all_goals dsimp only at h; omega
  · rw [if_neg hc]
    obtain ⟨a, b, c, d, e, f⟩ := g.later (show v.bytesParsed ≤ q.length + v.bytesParsed by omega)
    exact ⟨⟨a, b, c, d, e, f⟩, rfl⟩

theorem readSegwitCount_good (v : Tx) (br : Nat) (s : PStream) (g : v.Good (br + v.bytesParsed)) :
    (v.readSegwitCount br s).1.Good ((v.readSegwitCount br s).2.1 + v.bytesParsed) ∧ (v.readSegwitCount br s).1.bytesParsed = v.bytesParsed := by
  unfold readSegwitCount
  split
  · rename_i hc
    generalize s.readByte = z
    obtain ⟨c, s2⟩ := z
    dsimp only
    exact ⟨⟨fun h => by have := g.flag h; omega, newIns_good.1, g.outs, fun _ => ⟨by omega, fun _ => by omega⟩,
      fun ho => absurd (g.outpos ho).2 (by unfold outOffset; omega), Or.inl newIns_good.2⟩, rfl⟩
  · exact ⟨g, rfl⟩

theorem start_good {v : Tx} (h : v.Steady) (hst : ¬ (v.status = .failed ∨ v.status = .ub)) : v.start.Good v.start.bytesParsed := by
  unfold start
  by_cases hd : v.status = .done
  · rw [if_pos hd]
    exact ⟨fun h => absurd h (by simp), by simp, by simp, by simp, by simp, Or.inl (by simp)⟩
  · rw [if_neg hd]
    have hi : v.status = .incomplete := by
      rw [not_or] at hst
      cases e : v.status with
      | done => exact absurd e hd
      | incomplete => rfl
      | failed => exact absurd e hst.1
      | ub => exact absurd e hst.2
    obtain ⟨a, b, c, d, e, f⟩ := h hi
    exact ⟨a, b, c, d, e, f⟩

/-- Whatever the bytes: no witness that has been read will be read again. -/
theorem fromStream_steady (v : Tx) (s : PStream) (h : v.Steady) : (v.fromStream s).1.Steady := by
  unfold fromStream
  by_cases hst : v.status = .failed ∨ v.status = .ub
  · rw [if_pos hst]
    exact h
  rw [if_neg hst]
  have g0 := start_good h hst
  generalize v.start = v0 at *
  obtain ⟨g1, e1⟩ := readVersion_good v0 s g0
  generalize v0.readVersion s = z at *
  obtain ⟨v1, br1, s1⟩ := z
  dsimp only at g1 e1 ⊢
  have le : br1 ≤ (v1.readFlag br1 s1).2.1 := by
    unfold readFlag
    split
    · dsimp only; omega
    · exact Nat.le_refl _
  generalize v1.readFlag br1 s1 = z at *
  obtain ⟨good, br2, s2⟩ := z
  dsimp only at le ⊢
  cases good with
  | false => rw [if_neg (by simp)]; intro c; cases c
  | true =>
    rw [if_pos rfl]
    have g2 : v1.Good (br2 + v1.bytesParsed) := g1.later (by omega)
    obtain ⟨g3, e3⟩ := readSegwitCount_good v1 br2 s2 g2
    generalize v1.readSegwitCount br2 s2 = z at *
    obtain ⟨v2, br3, s3⟩ := z
    dsimp only at g3 e3 ⊢
    exact readIns_steady v2 br3 s3 (by rw [e3]; exact g3)

end Tx
end UB
