import Verif.Lemmas.HeapTxParse
import Verif.Lemmas.TxResume

/-! `Tx::from_stream` on the heap. -/

namespace UB
open Heap

/-! ### Lists of values with flags -/

theorem parseAll_map {γ β : Type} {π : γ → β} {f' : γ → PStream → γ × Nat × PStream} {f : β → PStream → β × Nat × PStream}
    (hf : ∀ x s, (π (f' x s).1, (f' x s).2) = f (π x) s) : ∀ (xs : List γ) (s : PStream),
    ((Tx.parseAll f' xs s).1.map π, (Tx.parseAll f' xs s).2) = Tx.parseAll f (xs.map π) s := by
  intro xs
  induction xs with
  | nil => intro s; rfl
  | cons x xs ih =>
    intro s
    rw [List.map_cons, Tx.parseAll, Tx.parseAll, ← hf x s]
    dsimp only
    rw [← ih]
    rfl

theorem contLoop_map {γ β : Type} {π : γ → β} {f' : γ → PStream → γ × Nat × PStream} {f : β → PStream → β × Nat × PStream} (st : β → Status)
    (hf : ∀ x s, (π (f' x s).1, (f' x s).2) = f (π x) s) : ∀ (xs : List γ) (s : PStream),
    ((Tx.contLoop f' (fun x => st (π x)) xs s).1.map π, (Tx.contLoop f' (fun x => st (π x)) xs s).2) = Tx.contLoop f st (xs.map π) s := by
  intro xs
  induction xs with
  | nil => intro s; rfl
  | cons x xs ih =>
    intro s
    have key : ((π (if s.avail ∧ st (π x) = .incomplete then f' x s else (x, 0, s)).1, (if s.avail ∧ st (π x) = .incomplete then f' x s else (x, 0, s)).2) : β × Nat × PStream) =
        if s.avail ∧ st (π x) = .incomplete then f (π x) s else (π x, 0, s) := by
      by_cases hc : s.avail ∧ st (π x) = .incomplete
      · rw [if_pos hc, if_pos hc]; exact hf x s
      · rw [if_neg hc, if_neg hc]
    rw [List.map_cons, Tx.contLoop, Tx.contLoop, ← key]
    generalize (if s.avail ∧ st (π x) = .incomplete then f' x s else (x, 0, s)) = t
    obtain ⟨y, n, s1⟩ := t
    dsimp only
    by_cases hc : st (π y) = .failed ∨ st (π y) = .ub
    · rw [if_pos hc, if_pos hc]
      rfl
    · rw [if_neg hc, if_neg hc, ← ih]
      rfl

theorem parseAll_rel {γ : Type} {f : γ → PStream → γ × Nat × PStream} {Q R : γ → Prop} (hf : ∀ x s, Q x → R (f x s).1) : ∀ (xs : List γ) (s : PStream),
    (∀ x ∈ xs, Q x) → ∀ x ∈ (Tx.parseAll f xs s).1, R x := by
  intro xs
  induction xs with
  | nil => intro s _ x hx; simp [Tx.parseAll] at hx
  | cons x xs ih =>
    intro s h y hy
    rw [Tx.parseAll] at hy
    rcases List.mem_cons.1 hy with rfl | hy
    · exact hf x s (h x (by simp))
    · exact ih _ (fun z hz => h z (by simp [hz])) y hy

theorem contLoop_all {γ : Type} {f : γ → PStream → γ × Nat × PStream} {st : γ → Status} {R : γ → Prop} (hf : ∀ x s, R x → st x = .incomplete → R (f x s).1) :
    ∀ (xs : List γ) (s : PStream), (∀ x ∈ xs, R x) → ∀ x ∈ (Tx.contLoop f st xs s).1, R x := by
  intro xs
  induction xs with
  | nil => intro s _ x hx; simp [Tx.contLoop] at hx
  | cons x xs ih =>
    intro s h y hy
    rw [Tx.contLoop] at hy
    have hx : R (if s.avail ∧ st x = .incomplete then f x s else (x, 0, s)).1 := by
      split
      · rename_i hc; exact hf x s (h x (by simp)) hc.2
      · exact h x (by simp)
    generalize (if s.avail ∧ st x = .incomplete then f x s else (x, 0, s)) = t at hx hy
    obtain ⟨z, n, s1⟩ := t
    dsimp only at hx hy
    split at hy
    · rcases List.mem_cons.1 hy with rfl | hy
      · exact hx
      · exact h y (by simp [hy])
    · rcases List.mem_cons.1 hy with rfl | hy
      · exact hx
      · exact ih _ (fun w hw => h w (by simp [hw])) y hy

/-- If the final list is good then so was the one before, when goodness of a changed element implies goodness before. -/
theorem contLoop_back {γ : Type} {f : γ → PStream → γ × Nat × PStream} {st : γ → Status} {K : γ → Prop} (hf : ∀ x s, st x = .incomplete → K (f x s).1 → K x) :
    ∀ (xs : List γ) (s : PStream), (∀ x ∈ (Tx.contLoop f st xs s).1, K x) → ∀ x ∈ xs, K x := by
  intro xs
  induction xs with
  | nil => intro s _ x hx; simp at hx
  | cons x xs ih =>
    intro s h y hy
    rw [Tx.contLoop] at h
    have hx : K (if s.avail ∧ st x = .incomplete then f x s else (x, 0, s)).1 → K x := by
      split
      · rename_i hc; exact hf x s hc.2
      · exact id
    generalize (if s.avail ∧ st x = .incomplete then f x s else (x, 0, s)) = t at hx h
    obtain ⟨z, n, s1⟩ := t
    dsimp only at hx h
    split at h
    · rcases List.mem_cons.1 hy with rfl | hy
      · exact hx (h z (by simp))
      · exact h y (by simp [hy])
    · rcases List.mem_cons.1 hy with rfl | hy
      · exact hx (h z (by simp))
      · exact ih s1 (fun w hw => h w (by simp [hw])) y hy

/-! ### Arrays -/

namespace Heap

theorem EachAt.map_eq {α β γ : Type} {P : α → β → HProp} {f : α → γ} {g : β → γ} {h : Heap} (hf : ∀ o v A, P o v h A → f o = g v) :
    ∀ {os : List α} {vs : List β} {A : Finset Nat}, EachAt P os vs h A → os.map f = vs.map g := by
  intro os
  induction os with
  | nil => intro vs A e; cases vs with
    | nil => rfl
    | cons _ _ => exact e.elim
  | cons o os ih => intro vs A e; cases vs with
    | nil => exact e.elim
    | cons v vs =>
      obtain ⟨A1, A2, h1, h2, -, -⟩ := e
      rw [List.map_cons, List.map_cons, hf o v A1 h1, ih h2]

theorem EachAt.replicate {α β : Type} {P : α → β → HProp} {o : α} {v : β} {h : Heap} (hp : P o v h ∅) : ∀ n, EachAt P (List.replicate n o) (List.replicate n v) h ∅ := by
  intro n
  induction n with
  | zero => rfl
  | succ n ih => exact ⟨∅, ∅, hp, ih, by simp, by simp⟩

/-- All elements of an array change. -/
theorem ArrAt.all {α β : Type} {P : α → β → HProp} (st : ∀ o v, Stable (P o v)) {p : Nat} {os : List α} {vs : List β} {h : Heap} {A : Finset Nat} (w : h.Wf)
    (a : ArrAt P p os vs h A) : ∃ A', EachAt P os vs h A' ∧ ∀ {h' : Heap} {os' : List α} {vs' : List β} {B : Finset Nat}, Step h h' A' B → EachAt P os' vs' h' B →
      os'.length = os.length → ∃ A'', ArrAt P p os' vs' h' A'' ∧ Step h h' A A'' := by
  rcases a.cases with ⟨rfl, rfl, rfl⟩ | ⟨ho, hv, A', e, hp, hn, rfl⟩
  · refine ⟨∅, rfl, fun {h' os' vs' B} s e hl => ?_⟩
    have hl' := e.length
    have : os' = [] := List.length_eq_zero_iff.1 hl
    subst this
    have : vs' = [] := List.length_eq_zero_iff.1 hl'.symm
    subst this
    rw [show B = ∅ from e] at s
    exact ⟨∅, ArrAt.nil p h', s⟩
  · refine ⟨A', e, fun {h' os' vs' B} s e' hl => ?_⟩
    have ho' : os' ≠ [] := by rintro rfl; exact ho (List.length_eq_zero_iff.1 hl.symm)
    have lp : ∀ q ∈ ({p} : Finset Nat), h.blocks q ≠ none := by simpa using hp
    have dp : Disjoint {p} A' := by simpa using hn
    refine ⟨insert p B, ⟨B, e', fun c => absurd c ho', fun _ => ⟨s.alive w lp dp p (by simp), ?_, rfl⟩⟩, ?_⟩
    · simpa using s.apart w lp dp
    · have := s.frame w {p} (fun q hq hc => Finset.disjoint_left.1 dp hq hc) lp
      rwa [Finset.union_comm A', Finset.union_comm B, ← Finset.insert_eq, ← Finset.insert_eq] at this

theorem ArrAt.nil_blocks {α β : Type} {P : α → β → HProp} {p : Nat} {os : List α} {h : Heap} {A : Finset Nat} (a : ArrAt P p os [] h A) : A = ∅ := by
  rcases a.cases with ⟨-, -, rfl⟩ | ⟨-, hv, -⟩
  · rfl
  · exact absurd rfl hv

/-- Two stages, each of which may lose blocks. -/
theorem Step.lose {h h1 h2 : Heap} {A B1 E1 B2 E2 : Finset Nat} (s1 : Step h h1 A (B1 ∪ E1)) (d1 : Disjoint B1 E1) (s2 : Step h1 h2 B1 (B2 ∪ E2))
    (d2 : Disjoint B2 E2) : Step h h2 A (B2 ∪ (E1 ∪ E2)) ∧ Disjoint B2 (E1 ∪ E2) ∧ (E1 ∪ E2).card = E1.card + E2.card := by
  have l1 : ∀ q ∈ E1, h1.blocks q ≠ none := fun q hq => s1.live q (Finset.mem_union_right _ hq)
  have f := s2.frame s1.wf E1 (fun q hq hc => Finset.disjoint_left.1 d1 hc hq) l1
  have d3 := s2.apart s1.wf l1 d1.symm
  rw [Finset.disjoint_union_right] at d3
  rw [Finset.union_assoc, Finset.union_comm E2] at f
  refine ⟨s1.trans f, ?_, Finset.card_union_of_disjoint d3.2⟩
  rw [Finset.disjoint_union_right]
  exact ⟨d3.1.symm, d2⟩

end Heap

/-! ### Transactions -/

/-- `TxIn::from_stream` with the flag, which it does not change. -/
def inF (v : TxIn × Bool) (s : PStream) : (TxIn × Bool) × Nat × PStream := (((v.1.fromStream s).1, v.2), (v.1.fromStream s).2)

/-- The witness of an input parsed. -/
def witF (v : TxIn × Bool) (s : PStream) : (TxIn × Bool) × Nat × PStream := ((Tx.parseWitness v.1 s).1.since v.2, (Tx.parseWitness v.1 s).2)

theorem fromStream_witness (v : TxIn) (s : PStream) : (v.fromStream s).1.witness = v.witness := by
  unfold TxIn.fromStream
  split
  · rfl
  · dsimp only
    have h1 : (v.start.readHead s).1.witness = v.witness := by
      show v.start.witness = _
      unfold TxIn.start
      split <;> rfl
    generalize v.start.readHead s = t at h1
    obtain ⟨v1, n, s1⟩ := t
    dsimp only at h1 ⊢
    have h2 : (v1.readScript n s1).1.witness = v1.witness := rfl
    generalize v1.readScript n s1 = t at h2
    obtain ⟨v2, n2, s2⟩ := t
    dsimp only at h2 ⊢
    rw [← h1, ← h2]
    unfold TxIn.readTail
    split
    · rfl
    · split
      · rfl
      · dsimp only
        split <;> rfl

theorem TxAt.scalars {o : HTx} {v : Tx} {u : List (TxIn × Bool)} {h : Heap} {A : Finset Nat} (a : TxAt o v u h A) (st : Status) (bp sw : Nat) (ver lock : UInt32) :
    TxAt { o with status := st, bytesParsed := bp, segwitFlag := sw, version := ver, locktime := lock }
      { v with status := st, bytesParsed := bp, segwitFlag := sw, version := ver, locktime := lock } u h A := by
  obtain ⟨eo, eu, r⟩ := a
  exact ⟨rfl, eu, r⟩

namespace HTx

theorem inAt_facts {h : Heap} (o : HTxIn) (v : TxIn × Bool) (A : Finset Nat) (a : InAt o v h A) :
    o.status = v.1.status ∧ o.length = v.1.length ∧ o.witness.status = v.1.witness.status ∧
      lenVarIntN o.witness.numElements + o.witness.witnessLen = v.1.witness.length := by
  obtain ⟨eo, A1, A2, h1, h2, -, -⟩ := a
  refine ⟨by rw [eo], ?_, ?_, ?_⟩
  · unfold HTxIn.length TxIn.length
    rw [h1.1]
    rfl
  · rw [h2.1]
    rfl
  · rw [h2.1]
    unfold Witness.length
    rw [Nat.add_comm]
    rfl

theorem outAt_facts {h : Heap} (o : HTxOut) (v : TxOut) (A : Finset Nat) (a : OutAt o v h A) : o.status = v.status ∧ o.length = v.length := by
  obtain ⟨eo, h1⟩ := a
  refine ⟨by rw [eo], ?_⟩
  unfold HTxOut.length TxOut.length
  rw [h1.1]
  rfl

variable {h : Heap} {o : HTx} {v : Tx} {u : List (TxIn × Bool)} {A : Finset Nat}

theorem ins_map {γ : Type} {f : HTxIn → γ} {g : TxIn → γ} (a : TxAt o v u h A) (hf : ∀ o v A, InAt o v h A → f o = g v.1) : o.txIns.map f = v.txIns.map g := by
  obtain ⟨-, eu, A1, A2, h1, -⟩ := a
  obtain ⟨A', e, -⟩ := h1.each
  rw [eu, List.map_map]
  exact e.map_eq hf

theorem outs_map {γ : Type} {f : HTxOut → γ} {g : TxOut → γ} (a : TxAt o v u h A) (hf : ∀ o v A, OutAt o v h A → f o = g v) : o.txOuts.map f = v.txOuts.map g := by
  obtain ⟨-, eu, A1, A2, -, h2, -⟩ := a
  obtain ⟨A', e, -⟩ := h2.each
  exact e.map_eq hf

theorem access_at (a : TxAt o v u h A) : h.access o.inPtr o.txIns.length = .ok () ∧ h.access o.outPtr o.txOuts.length = .ok () := by
  obtain ⟨-, eu, A1, A2, h1, h2, -⟩ := a
  exact ⟨h1.access, h2.access⟩

theorem outOffset_at (a : TxAt o v u h A) : o.outOffset = v.outOffset := by
  unfold outOffset Tx.outOffset
  rw [ins_map a (f := fun x => x.length) (g := fun x => x.length) (fun o v A h => (inAt_facts o v A h).2.1), show o.segwitFlag = v.segwitFlag by rw [a.1]]

theorem witOffset_at (a : TxAt o v u h A) : o.witOffset = v.witOffset := by
  unfold witOffset Tx.witOffset
  rw [outOffset_at a, outs_map a (f := fun x => x.length) (g := fun x => x.length) (fun o v A h => (outAt_facts o v A h).2)]

theorem lockOffset_at (a : TxAt o v u h A) : o.lockOffset = v.lockOffset := by
  unfold lockOffset Tx.lockOffset
  rw [witOffset_at a, ins_map a (g := fun x => x.witness.length) (fun o v A h => (inAt_facts o v A h).2.2.2), show o.segwitFlag = v.segwitFlag by rw [a.1]]

theorem completed_at (a : TxAt o v u h A) : o.completed = v.completed := by
  unfold completed Tx.completed
  have sw : o.segwitFlag = v.segwitFlag := by rw [a.1]
  have h1 := congrArg (List.all · id) (ins_map a (f := fun i => decide (i.status = .done ∧ (o.segwitFlag > 0 → i.witness.status = .done)))
    (g := fun i => decide (i.status = .done ∧ (v.segwitFlag > 0 → i.witness.status = .done)))
    (fun o v A h => by rw [(inAt_facts o v A h).1, (inAt_facts o v A h).2.2.1, sw]))
  have h2 := congrArg (List.all · id) (outs_map a (f := fun i => decide (i.status = .done)) (g := fun i => decide (i.status = .done))
    (fun o v A h => by rw [(outAt_facts o v A h).1]))
  simp only [List.all_map] at h1 h2
  exact congrArg₂ (· && ·) h1 h2

theorem finish_at (a : TxAt o v u h A) (st : Status) (br : Nat) (s : PStream) : TxAt (o.finish st br s h).1 (v.finish st br s).1 u h A :=
  ⟨by show ({ o with status := st, bytesParsed := o.bytesParsed + br } : HTx) = _; rw [a.1]; rfl, a.2⟩

/-- Transaction.cpp:457-485. -/
theorem readLock_at (a : TxAt o v u h A) (br : Nat) (s : PStream) (hub : (v.readLock br s).1.status ≠ .ub) :
    ∃ o', o.readLock br s h = .ok (o', (v.readLock br s).2.1, (v.readLock br s).2.2, h) ∧ TxAt o' (v.readLock br s).1 u h A := by
  obtain ⟨x1, x2⟩ := access_at a
  have el := lockOffset_at a
  unfold readLock
  rw [x1, C.bind_ok, x2, C.bind_ok]
  unfold Tx.readLock at *
  rw [el]
  have ebp : o.bytesParsed = v.bytesParsed := by rw [a.1]
  rcases hr : s.readN (v.lockOffset + 4 - (br + v.bytesParsed)) with ⟨q, s1⟩
  rw [ebp]
  dsimp only at hub ⊢
  rw [hr] at hub ⊢
  dsimp only at hub ⊢
  by_cases hc : q ≠ [] ∧ br + v.bytesParsed < v.lockOffset
  · rw [if_pos hc] at hub
    exact absurd rfl hub
  rw [if_neg hc, if_neg hc]
  have elt : o.locktime = v.locktime := by rw [a.1]
  have a1 : TxAt { o with bytesParsed := v.bytesParsed, locktime := accLE v.locktime (br + v.bytesParsed - v.lockOffset) q }
      { v with locktime := accLE v.locktime (br + v.bytesParsed - v.lockOffset) q } u h A :=
    ⟨by rw [a.1], a.2⟩
  have ec := completed_at a1
  have elo := lockOffset_at a1
  have est : o.status = v.status := by rw [a.1]
  rw [elt, elo, ec, est]
  rw [est] at a1
  exact ⟨_, rfl, finish_at a1 _ _ s1⟩

/-- All inputs change. -/
theorem ins_all (w : h.Wf) (a : TxAt o v u h A) : ∃ A', EachAt InAt o.txIns u h A' ∧ ∀ {h' os' u' B}, Step h h' A' B → EachAt InAt os' u' h' B → u'.length = u.length →
    ∃ A'', TxAt { o with txIns := os' } { v with txIns := u'.map Prod.fst } u' h' A'' ∧ Step h h' A A'' := by
  obtain ⟨eo, eu, A1, A2, h1, h2, hd, rfl⟩ := a
  obtain ⟨A', e1, hr⟩ := h1.all InAt.stable w
  refine ⟨A', e1, fun {h' os' u' B} st e' hl => ?_⟩
  obtain ⟨A'', a'', st'⟩ := hr st e' (by rw [e'.length, e1.length, hl])
  have l1 := (insStable _ _ _).live h1
  have l2 := (outsStable _ _ _).live h2
  have k2 := (outsStable _ _ _).keep w st' l1 hd.symm h2
  exact ⟨A'' ∪ A2, ⟨by rw [eo], rfl, A'', A2, a'', k2, (st'.apart w l2 hd.symm).symm, rfl⟩,
    st'.frame w A2 (fun q hq hc => Finset.disjoint_left.1 hd hc hq) l2⟩

/-- All outputs change. -/
theorem outs_all (w : h.Wf) (a : TxAt o v u h A) : ∃ A', EachAt OutAt o.txOuts v.txOuts h A' ∧ ∀ {h' os' vs' B}, Step h h' A' B → EachAt OutAt os' vs' h' B →
    vs'.length = v.txOuts.length → ∃ A'', TxAt { o with txOuts := os' } { v with txOuts := vs' } u h' A'' ∧ Step h h' A A'' := by
  obtain ⟨eo, eu, A1, A2, h1, h2, hd, rfl⟩ := a
  obtain ⟨A', e1, hr⟩ := h2.all OutAt.stable w
  refine ⟨A', e1, fun {h' os' vs' B} st e' hl => ?_⟩
  obtain ⟨A'', a'', st'⟩ := hr st e' (by rw [e'.length, e1.length, hl])
  have l1 := (insStable _ _ _).live h1
  have l2 := (outsStable _ _ _).live h2
  have k1 := (insStable _ _ _).keep w st' l2 hd h1
  refine ⟨A1 ∪ A'', ⟨by rw [eo], eu, A1, A'', k1, a'', st'.apart w l1 hd, rfl⟩, ?_⟩
  have := st'.frame w A1 (fun q hq hc => Finset.disjoint_left.1 hd hq hc) l1
  rwa [Finset.union_comm A1, Finset.union_comm A1]

/-- What a parser of elements does to pairs of an element and its flag. -/
theorem inF_at {h : Heap} {o : HTxIn} {v v' : TxIn × Bool} {A : Finset Nat} {s s' : PStream} {r : Nat} (w : h.Wf) (g : h.Generous) (a : InAt o v h A)
    (hq : v.1.status = .done → v.1.scriptSig.status = .done) (ev : inF v s = (v', r, s')) (hk : v'.1.status ≠ .ub) :
    ∃ o' h' B, o.fromStream s h = .ok (o', r, s', h') ∧ InAt o' v' h' B ∧ Step h h' A B := by
  unfold inF at ev
  injection ev with e1 e2
  subst e1
  exact HTxIn.fromStream_at w g a (Prod.ext rfl e2) hk hq

theorem witF_at {h : Heap} {o : HTxIn} {v v' : TxIn × Bool} {A : Finset Nat} {s s' : PStream} {r : Nat} (w : h.Wf) (g : h.Generous) (a : InAt o v h A)
    (ev : witF v s = (v', r, s')) (hk : v'.1.witness.status ≠ .ub ∧ v'.1.witness.arr.length < 2 ^ 62) :
    ∃ o' h' B, o.parseWitness s h = .ok (o', r, s', h') ∧ InAt o' v' h' B ∧ Step h h' A B := by
  unfold witF at ev
  injection ev with e1 e2
  subst e1
  exact HTxIn.parseWitness_at w g a (Prod.ext rfl e2) hk.1 hk.2

theorem _root_.UB.Witness.fromStream_len (w : Witness) (s : PStream) (hd : w.status = .done → w.arr = []) : w.arr.length ≤ (w.fromStream s).1.arr.length := by
  unfold Witness.fromStream
  split
  · exact Nat.le_refl _
  have h1 : w.arr.length ≤ w.start.arr.length := by
    by_cases h : w.status = .done
    · rw [hd h]
      exact Nat.zero_le _
    · rw [show w.start = { w with status := .incomplete } by unfold Witness.start; rw [if_neg h]]
  refine Nat.le_trans h1 ?_
  dsimp only
  generalize w.start = x
  have body : ∀ (x : Witness) br s, x.arr.length ≤ (Witness.fromStream.body x br s).1.arr.length := by
    intro x br s
    unfold Witness.fromStream.body
    split
    · exact Nat.le_refl _
    · exact HWitness.loop_len _ _ _ _
  split
  · split
    · exact body { x with numElements := _, lenLen := 1 } 1 _
    · exact Nat.le_refl _
  · exact body x 0 s

theorem witF_not_stale (t : TxIn × Bool) (s : PStream) (hd : t.1.witness.status = .done → t.1.witness.arr = []) (ht : ¬ HTxIn.stale t) : ¬ HTxIn.stale (witF t s).1 := by
  intro c
  have hl := t.1.witness.fromStream_len s hd
  have c1 : (t.1.witness.fromStream s).1.arr = [] := c.1
  rw [c1, List.length_nil, Nat.le_zero, List.length_eq_zero_iff] at hl
  refine ht ⟨hl, ?_⟩
  have := c.2
  unfold witF TxIn.since at this
  rw [Bool.or_eq_true, decide_eq_true_eq] at this
  exact this.resolve_right (fun c => c c1)

/-- The loop of Transaction.cpp:400-409. -/
theorem contIns_at (w : h.Wf) (g : h.Generous) (a : TxAt o v u h A) (s : PStream) (hk : ∀ i ∈ (Tx.contLoop TxIn.fromStream (·.status) v.txIns s).1, i.status ≠ .ub) :
    ∃ ins u' h' B, contLoop HTxIn.fromStream (·.status) o.txIns s h = .ok (ins, (Tx.contLoop TxIn.fromStream (·.status) v.txIns s).2.1,
        (Tx.contLoop TxIn.fromStream (·.status) v.txIns s).2.2.1, (Tx.contLoop TxIn.fromStream (·.status) v.txIns s).2.2.2, h') ∧
      TxAt { o with txIns := ins } { v with txIns := (Tx.contLoop TxIn.fromStream (·.status) v.txIns s).1 } u' h' B ∧ Step h h' A B ∧
      ((∀ i ∈ u, ¬ HTxIn.stale i) → ∀ i ∈ u', ¬ HTxIn.stale i) := by
  have eu := a.2.1
  obtain ⟨A', e1, hr⟩ := ins_all w a
  have em := contLoop_map (π := Prod.fst) (f' := inF) (f := TxIn.fromStream) (·.status) (fun x s => rfl) u s
  rw [← eu] at em
  have hlen := contLoop_length (f := inF) (st := fun x => x.1.status) u s
  have hst := contLoop_all (f := inF) (st := fun x => x.1.status) (R := fun t => ¬ HTxIn.stale t) (fun t s ht _ c => ht ⟨by
    have := c.1
    rwa [show (inF t s).1.1.witness = t.1.witness from fromStream_witness t.1 s] at this, c.2⟩) u s
  rcases er : Tx.contLoop inF (fun x => x.1.status) u s with ⟨u', m, s', b⟩
  rw [er] at em hlen hst
  rw [← em] at hk ⊢
  dsimp only at hk hlen hst ⊢
  obtain ⟨os', h', B, x, e', st⟩ := contLoop_at InAt.stable (fo := HTxIn.fromStream) (fv := inF) (so := fun t => t.status) (sv := fun t => t.1.status)
    (K := fun t => t.1.status ≠ .ub) (fun {o v h A} a => (inAt_facts o v A a).1) (fun _ h => h)
    (fun {h o v v' A s s' r} w g a hi ev hk => inF_at w g a (fun c => by rw [hi] at c; cases c) ev hk) w g e1 er (mem_fst hk)
  obtain ⟨A'', a'', st'⟩ := hr st e' hlen
  exact ⟨os', u', h', A'', x, a'', st', hst⟩

/-- The loop of Transaction.cpp:422-431. -/
theorem contOuts_at (w : h.Wf) (g : h.Generous) (a : TxAt o v u h A) (s : PStream) (hk : ∀ i ∈ (Tx.contLoop TxOut.fromStream (·.status) v.txOuts s).1, i.status ≠ .ub) :
    ∃ outs h' B, contLoop HTxOut.fromStream (·.status) o.txOuts s h = .ok (outs, (Tx.contLoop TxOut.fromStream (·.status) v.txOuts s).2.1,
        (Tx.contLoop TxOut.fromStream (·.status) v.txOuts s).2.2.1, (Tx.contLoop TxOut.fromStream (·.status) v.txOuts s).2.2.2, h') ∧
      TxAt { o with txOuts := outs } { v with txOuts := (Tx.contLoop TxOut.fromStream (·.status) v.txOuts s).1 } u h' B ∧ Step h h' A B := by
  obtain ⟨A', e1, hr⟩ := outs_all w a
  have hlen := contLoop_length (f := TxOut.fromStream) (st := fun x => x.status) v.txOuts s
  rcases er : Tx.contLoop TxOut.fromStream (·.status) v.txOuts s with ⟨vs', m, s', b⟩
  rw [er] at hk hlen
  dsimp only at hk hlen ⊢
  obtain ⟨os', h', B, x, e', st⟩ := contLoop_at OutAt.stable (fo := HTxOut.fromStream) (fv := TxOut.fromStream) (so := fun t => t.status) (sv := fun t => t.status)
    (K := fun t => t.status ≠ .ub) (fun {o v h A} a => (outAt_facts o v A a).1) (fun _ h => h)
    (fun {h o v v' A s s' r} w g a hi ev hk => HTxOut.fromStream_at w g a ev hk (fun c => by rw [hi] at c; cases c)) w g e1 er hk
  obtain ⟨A'', a'', st'⟩ := hr st e' hlen
  exact ⟨os', h', A'', x, a'', st'⟩

def WOk (i : TxIn) : Prop := i.witness.status ≠ .ub ∧ i.witness.arr.length < 2 ^ 62

/-- The first pass over the witnesses, Transaction.cpp:437-441. -/
theorem allWit_at (w : h.Wf) (g : h.Generous) (a : TxAt o v u h A) (s : PStream) (hk : ∀ i ∈ (Tx.parseAll Tx.parseWitness v.txIns s).1, WOk i) :
    ∃ ins u' h' B, parseAll HTxIn.parseWitness o.txIns s h = .ok (ins, (Tx.parseAll Tx.parseWitness v.txIns s).2.1,
        (Tx.parseAll Tx.parseWitness v.txIns s).2.2, h') ∧
      TxAt { o with txIns := ins } { v with txIns := (Tx.parseAll Tx.parseWitness v.txIns s).1 } u' h' B ∧ Step h h' A B ∧
      ((∀ i ∈ u, ¬ HTxIn.stale i) → (∀ i ∈ v.txIns, i.witness.status = .done → i.witness.arr = []) → ∀ i ∈ u', ¬ HTxIn.stale i) := by
  have eu := a.2.1
  obtain ⟨A', e1, hr⟩ := ins_all w a
  have em := parseAll_map (π := Prod.fst) (f' := witF) (f := Tx.parseWitness) (fun x s => rfl) u s
  rw [← eu] at em
  have hlen := parseAll_length (f := witF) u s
  have hst : (∀ i ∈ u, ¬ HTxIn.stale i) → (∀ i ∈ v.txIns, i.witness.status = .done → i.witness.arr = []) → ∀ i ∈ (Tx.parseAll witF u s).1, ¬ HTxIn.stale i :=
    fun h1 h2 => parseAll_rel (fun t s (ht : ¬ HTxIn.stale t ∧ (t.1.witness.status = .done → t.1.witness.arr = [])) => witF_not_stale t s ht.2 ht.1) u s
      (fun t ht => ⟨h1 t ht, mem_fst (eu ▸ h2) t ht⟩)
  rcases er : Tx.parseAll witF u s with ⟨u', m, s'⟩
  rw [er] at em hlen hst
  rw [← em] at hk ⊢
  dsimp only at hk hlen hst ⊢
  obtain ⟨os', h', B, x, e', st⟩ := parseAll_at InAt.stable (fo := HTxIn.parseWitness) (fv := witF) (Q := fun _ => True)
    (K := fun t => WOk t.1)
    (fun {h o v v' A s s' r} w g a _ ev hk => witF_at w g a ev hk) w g e1 (fun _ _ => trivial) er (mem_fst hk)
  obtain ⟨A'', a'', st'⟩ := hr st e' hlen
  exact ⟨os', u', h', A'', x, a'', st', hst⟩

/-- The loop of Transaction.cpp:442-452. -/
theorem contWit_at (w : h.Wf) (g : h.Generous) (a : TxAt o v u h A) (s : PStream) (hk : ∀ i ∈ (Tx.contLoop Tx.parseWitness (·.witness.status) v.txIns s).1, WOk i) :
    ∃ ins u' h' B, contLoop HTxIn.parseWitness (·.witness.status) o.txIns s h = .ok (ins, (Tx.contLoop Tx.parseWitness (·.witness.status) v.txIns s).2.1,
        (Tx.contLoop Tx.parseWitness (·.witness.status) v.txIns s).2.2.1, (Tx.contLoop Tx.parseWitness (·.witness.status) v.txIns s).2.2.2, h') ∧
      TxAt { o with txIns := ins } { v with txIns := (Tx.contLoop Tx.parseWitness (·.witness.status) v.txIns s).1 } u' h' B ∧ Step h h' A B ∧
      ((∀ i ∈ u, ¬ HTxIn.stale i) → ∀ i ∈ u', ¬ HTxIn.stale i) := by
  have eu := a.2.1
  obtain ⟨A', e1, hr⟩ := ins_all w a
  have em := contLoop_map (π := Prod.fst) (f' := witF) (f := Tx.parseWitness) (fun t => t.witness.status) (fun x s => rfl) u s
  rw [← eu] at em
  have hlen := contLoop_length (f := witF) (st := fun x => x.1.witness.status) u s
  have hst := contLoop_all (f := witF) (st := fun x => x.1.witness.status) (R := fun t => ¬ HTxIn.stale t) (fun t s ht hi => witF_not_stale t s (fun c => by rw [hi] at c; cases c) ht) u s
  rcases er : Tx.contLoop witF (fun x => x.1.witness.status) u s with ⟨u', m, s', b⟩
  rw [er] at em hlen hst
  rw [← em] at hk ⊢
  dsimp only at hk hlen hst ⊢
  obtain ⟨os', h', B, x, e', st⟩ := contLoop_at InAt.stable (fo := HTxIn.parseWitness) (fv := witF) (so := fun t => t.witness.status) (sv := fun t => t.1.witness.status)
    (K := fun t => WOk t.1) (fun {o v h A} a => (inAt_facts o v A a).2.2.1) (fun {v} (h : WOk v.1) => h.1)
    (fun {h o v v' A s s' r} w g a hi ev hk => witF_at w g a ev hk) w g e1 er (mem_fst hk)
  obtain ⟨A'', a'', st'⟩ := hr st e' hlen
  exact ⟨os', u', h', A'', x, a'', st', hst⟩

/-- `new TxIn[n]` and the first pass over the inputs, Transaction.cpp:376-381, 394-398. -/
theorem newIns_at (w : h.Wf) (g : h.Generous) (a : TxAt o v u h A) (n : Nat) (s : PStream)
    (hk : ∀ i ∈ (Tx.parseAll TxIn.fromStream (List.replicate n {}) s).1, i.status ≠ .ub) :
    ∃ o' u' h' B E, o.newIns n s h = .ok (o', (Tx.parseAll TxIn.fromStream (List.replicate n {}) s).2.1, (Tx.parseAll TxIn.fromStream (List.replicate n {}) s).2.2, h') ∧
      TxAt o' { v with txIns := (Tx.parseAll TxIn.fromStream (List.replicate n {}) s).1 } u' h' B ∧ Step h h' A (B ∪ E) ∧ Disjoint B E ∧
      (∀ i ∈ u', ¬ HTxIn.stale i) ∧ (v.txIns = [] → E.card = if n = 0 then 1 else 0) := by
  obtain ⟨eo, eu, A1, A2, h1, h2, hd, rfl⟩ := a
  obtain ⟨p, hp1, n1, s1, b1⟩ := new_get w
  have em := parseAll_map (π := Prod.fst) (f' := inF) (f := TxIn.fromStream) (fun x s => rfl) (List.replicate n (({}, false) : TxIn × Bool)) s
  rw [List.map_replicate] at em
  have hst := parseAll_rel (f := inF) (Q := fun t => t.2 = false) (R := fun t => ¬ HTxIn.stale t) (fun t s ht c => by
    have := c.2
    rw [show (inF t s).1.2 = t.2 from rfl, ht] at this
    cases this) (List.replicate n (({}, false) : TxIn × Bool)) s (fun x hx => by rw [List.eq_of_mem_replicate hx])
  have hlen := parseAll_length (f := inF) (List.replicate n (({}, false) : TxIn × Bool)) s
  rcases er : Tx.parseAll inF (List.replicate n (({}, false) : TxIn × Bool)) s with ⟨u', m, s'⟩
  rw [er] at em hst hlen
  rw [← em] at hk ⊢
  dsimp only at hk hst hlen ⊢
  obtain ⟨os', h', B', x, e', st⟩ := parseAll_at InAt.stable (fo := HTxIn.fromStream) (fv := inF) (Q := fun t => t.1.scriptSig.status = .done)
    (K := fun t => t.1.status ≠ .ub) (fun {h o v v' A s s' r} w g a hq ev hk => inF_at w g a (fun _ => hq) ev hk) s1.wf (s1.generous g)
    (EachAt.replicate (InAt.null s1.wf) n) (fun t ht => by rw [List.eq_of_mem_replicate ht]) er (mem_fst hk)
  obtain ⟨s13, dp⟩ := s1.new2 st w
  obtain ⟨An, En, an, hu, dn, hc⟩ := ArrAt.make e' (st.alive s1.wf (D := {p}) (by simpa using b1) (by simp) p (by simp)) (by simpa using dp)
  have l1 := (insStable _ _ _).live h1
  have l2 := (outsStable _ _ _).live h2
  have k2 := (outsStable _ _ _).keep w s13 (by simp) (by simp) h2
  have lA : ∀ q ∈ A1 ∪ A2, h.blocks q ≠ none := fun q hq => (Finset.mem_union.1 hq).elim (l1 q) (l2 q)
  have dA := s13.apart w lA (by simp)
  have f := s13.frame w (A1 ∪ A2) (by simp) lA
  rw [hu] at dA f
  simp only [Finset.disjoint_union_left, Finset.disjoint_union_right] at dA
  refine ⟨{ o with inPtr := p, txIns := os' }, u', h', An ∪ A2, En ∪ A1, ?_, ⟨?_, rfl, An, A2, an, k2, dA.1.2.symm, rfl⟩, ?_, ?_, hst, fun hv => ?_⟩
  · unfold newIns
    rw [n1]
    dsimp only
    rw [x, C.bind_ok]
    rfl
  · rw [eo]
  · rw [Finset.empty_union] at f
    have : An ∪ En ∪ (A1 ∪ A2) = An ∪ A2 ∪ (En ∪ A1) := by
      ext q; simp only [Finset.mem_union]; tauto
    rwa [this] at f
  · simp only [Finset.disjoint_union_left, Finset.disjoint_union_right]
    exact ⟨⟨dn, dA.2.2⟩, dA.1.1.symm, hd.symm⟩
  · rw [eu, List.map_eq_nil_iff] at hv
    subst hv
    rw [h1.nil_blocks, Finset.union_empty, hc]
    rw [List.length_replicate] at hlen
    rw [← hlen]
    simp only [List.length_eq_zero_iff]

/-- `new TxOut[n]` and the first pass over the outputs, Transaction.cpp:415-420. -/
theorem newOuts_at (w : h.Wf) (g : h.Generous) (a : TxAt o v u h A) (n : Nat) (s : PStream)
    (hk : ∀ i ∈ (Tx.parseAll TxOut.fromStream (List.replicate n {}) s).1, i.status ≠ .ub) :
    ∃ o' h' B E, o.newOuts n s h = .ok (o', (Tx.parseAll TxOut.fromStream (List.replicate n {}) s).2.1, (Tx.parseAll TxOut.fromStream (List.replicate n {}) s).2.2, h') ∧
      TxAt o' { v with txOuts := (Tx.parseAll TxOut.fromStream (List.replicate n {}) s).1 } u h' B ∧ Step h h' A (B ∪ E) ∧ Disjoint B E ∧
      (v.txOuts = [] → E.card = if n = 0 then 1 else 0) := by
  obtain ⟨eo, eu, A1, A2, h1, h2, hd, rfl⟩ := a
  obtain ⟨p, hp1, n1, s1, b1⟩ := new_get w
  have hlen := parseAll_length (f := TxOut.fromStream) (List.replicate n ({} : TxOut)) s
  rcases er : Tx.parseAll TxOut.fromStream (List.replicate n ({} : TxOut)) s with ⟨vs', m, s'⟩
  rw [er] at hlen hk
  dsimp only at hk hlen ⊢
  obtain ⟨os', h', B', x, e', st⟩ := parseAll_at OutAt.stable (fo := HTxOut.fromStream) (fv := TxOut.fromStream) (Q := fun t => t.scriptPubkey.status = .done)
    (K := fun t => t.status ≠ .ub) (fun {h o v v' A s s' r} w g a hq ev hk => HTxOut.fromStream_at w g a ev hk (fun _ => hq)) s1.wf (s1.generous g)
    (EachAt.replicate (OutAt.null hp1) n) (fun t ht => by rw [List.eq_of_mem_replicate ht]) er hk
  obtain ⟨s13, dp⟩ := s1.new2 st w
  obtain ⟨An, En, an, hu, dn, hc⟩ := ArrAt.make e' (st.alive s1.wf (D := {p}) (by simpa using b1) (by simp) p (by simp)) (by simpa using dp)
  have l1 := (insStable _ _ _).live h1
  have l2 := (outsStable _ _ _).live h2
  have k1 := (insStable _ _ _).keep w s13 (by simp) (by simp) h1
  have lA : ∀ q ∈ A1 ∪ A2, h.blocks q ≠ none := fun q hq => (Finset.mem_union.1 hq).elim (l1 q) (l2 q)
  have dA := s13.apart w lA (by simp)
  have f := s13.frame w (A1 ∪ A2) (by simp) lA
  rw [hu] at dA f
  simp only [Finset.disjoint_union_left, Finset.disjoint_union_right] at dA
  refine ⟨{ o with outPtr := p, txOuts := os' }, h', A1 ∪ An, En ∪ A2, ?_, ⟨?_, eu, A1, An, k1, an, dA.1.1, rfl⟩, ?_, ?_, fun hv => ?_⟩
  · unfold newOuts
    rw [n1]
    dsimp only
    rw [x, C.bind_ok]
    rfl
  · rw [eo]
  · rw [Finset.empty_union] at f
    have : An ∪ En ∪ (A1 ∪ A2) = A1 ∪ An ∪ (En ∪ A2) := by
      ext q; simp only [Finset.mem_union]; tauto
    rwa [this] at f
  · simp only [Finset.disjoint_union_left, Finset.disjoint_union_right]
    exact ⟨⟨dA.2.1, dn⟩, hd, dA.1.2.symm⟩
  · rw [hv] at h2
    rw [h2.nil_blocks, Finset.union_empty, hc]
    rw [List.length_replicate] at hlen
    rw [← hlen]
    simp only [List.length_eq_zero_iff]

/-- A witness which has been read completely is empty. -/
def WD (i : TxIn) : Prop := i.witness.status = .done → i.witness.arr = []

theorem WOk.back (x : TxIn) (s : PStream) (hi : x.witness.status = .incomplete) (h : WOk (Tx.parseWitness x s).1) : WOk x :=
  ⟨by rw [hi]; simp, Nat.lt_of_le_of_lt (x.witness.fromStream_len s (fun c => by rw [hi] at c; cases c)) h.2⟩

theorem readLock_keep (v : Tx) (br : Nat) (s : PStream) : (v.readLock br s).1.txIns = v.txIns ∧ (v.readLock br s).1.txOuts = v.txOuts := by
  unfold Tx.readLock
  dsimp only
  split <;> exact ⟨rfl, rfl⟩

/-- The first pass over the witnesses. -/
def first (v : Tx) (br : Nat) (s : PStream) : List TxIn × Nat × PStream :=
  if br + v.bytesParsed = v.witOffset then Tx.parseAll Tx.parseWitness v.txIns s else (v.txIns, 0, s)

/-- The same on the heap. -/
def firstH (o : HTx) (br : Nat) (s : PStream) (h : Heap) : C (List HTxIn × Nat × PStream × Heap) :=
  if br + o.bytesParsed = o.witOffset then parseAll HTxIn.parseWitness o.txIns s h else pure (o.txIns, 0, s, h)

theorem readWitnesses_eq (o : HTx) (br : Nat) (s : PStream) (h : Heap) (hf : o.segwitFlag > 0) : o.readWitnesses br s h = (do
    h.access o.inPtr o.txIns.length
    let t ← firstH o br s h
    let c ← contLoop HTxIn.parseWitness (·.witness.status) t.1 t.2.2.1 t.2.2.2
    if c.2.2.2.1 then ({ o with txIns := c.1 } : HTx).readLock (br + t.2.1 + c.2.1) c.2.2.1 c.2.2.2.2
    else return ({ o with txIns := c.1 } : HTx).finish .failed (br + t.2.1 + c.2.1) c.2.2.1 c.2.2.2.2) := by
  unfold readWitnesses
  rw [if_pos hf]
  simp only [firstH, C.ite_bind]

theorem first_at (w : h.Wf) (g : h.Generous) (a : TxAt o v u h A) (br : Nat) (s : PStream) (hk : ∀ i ∈ (first v br s).1, WOk i) :
    ∃ ins u' h' B, firstH o br s h = .ok (ins, (first v br s).2.1, (first v br s).2.2, h') ∧
      TxAt { o with txIns := ins } { v with txIns := (first v br s).1 } u' h' B ∧ Step h h' A B ∧
      ((∀ i ∈ u, ¬ HTxIn.stale i) → (br + v.bytesParsed = v.witOffset → ∀ i ∈ v.txIns, WD i) → ∀ i ∈ u', ¬ HTxIn.stale i) := by
  have ebp : o.bytesParsed = v.bytesParsed := by rw [a.1]
  unfold firstH
  unfold first at hk ⊢
  have ec : (br + o.bytesParsed = o.witOffset) = (br + v.bytesParsed = v.witOffset) := by rw [witOffset_at a, ebp]
  by_cases hc : br + v.bytesParsed = v.witOffset
  · rw [if_pos hc] at hk ⊢
    rw [if_pos (ec.mpr hc)]
    obtain ⟨ins, u', h', B, x, a', st, ns⟩ := allWit_at w g a s hk
    exact ⟨ins, u', h', B, x, a', st, fun h1 h2 => ns h1 (h2 hc)⟩
  · rw [if_neg hc, if_neg (fun c => hc (ec.mp c))]
    exact ⟨o.txIns, u, h, A, rfl, a, Step.refl w ((TxAt.stable _ _ _).live a), fun h1 _ => h1⟩

/-- Transaction.cpp:436-485. -/
theorem readWitnesses_at (w : h.Wf) (g : h.Generous) (a : TxAt o v u h A) (br : Nat) (s : PStream) (hs : ∀ i ∈ u, ¬ HTxIn.stale i)
    (hc : br + v.bytesParsed = v.witOffset → ∀ i ∈ v.txIns, WD i) (hub : (v.readWitnesses br s).1.status ≠ .ub)
    (hsm : ∀ i ∈ (v.readWitnesses br s).1.txIns, i.witness.arr.length < 2 ^ 62) :
    ∃ o' u' h' B, o.readWitnesses br s h = .ok (o', (v.readWitnesses br s).2.1, (v.readWitnesses br s).2.2, h') ∧
      TxAt o' (v.readWitnesses br s).1 u' h' B ∧ Step h h' A B ∧ (∀ i ∈ u', ¬ HTxIn.stale i) := by
  have esw : o.segwitFlag = v.segwitFlag := by rw [a.1]
  by_cases hf : v.segwitFlag > 0
  · rw [readWitnesses_eq o br s h (esw ▸ hf), (access_at a).1, C.bind_ok]
    have ev : v.readWitnesses br s = (match (Tx.contAll Tx.parseWitness (·.witness.status) (first v br s).1 (first v br s).2.2).2.2.2 with
        | some st => ({ v with txIns := (Tx.contAll Tx.parseWitness (·.witness.status) (first v br s).1 (first v br s).2.2).1 } : Tx).finish st
            (br + (first v br s).2.1 + (Tx.contAll Tx.parseWitness (·.witness.status) (first v br s).1 (first v br s).2.2).2.1)
            (Tx.contAll Tx.parseWitness (·.witness.status) (first v br s).1 (first v br s).2.2).2.2.1
        | none => ({ v with txIns := (Tx.contAll Tx.parseWitness (·.witness.status) (first v br s).1 (first v br s).2.2).1 } : Tx).readLock
            (br + (first v br s).2.1 + (Tx.contAll Tx.parseWitness (·.witness.status) (first v br s).1 (first v br s).2.2).2.1)
            (Tx.contAll Tx.parseWitness (·.witness.status) (first v br s).1 (first v br s).2.2).2.2.1) := by
      unfold Tx.readWitnesses
      rw [if_pos hf]
      rfl
    rw [ev] at hub hsm ⊢
    have back := contLoop_back (f := Tx.parseWitness) (st := fun i => i.witness.status) (K := WOk) WOk.back (first v br s).1 (first v br s).2.2
    have first_at := first_at w g a br s
    generalize first v br s = F at *
    obtain ⟨ins1, n, s1⟩ := F
    dsimp only at hub hsm back first_at ⊢
    unfold Tx.contAll at hub hsm ⊢
    rcases er : Tx.contLoop Tx.parseWitness (fun i => i.witness.status) ins1 s1 with ⟨ins2, m, s2, good⟩
    rw [er] at hub hsm back
    dsimp only at hub hsm back ⊢
    by_cases hany : (ins2.any fun x => decide (x.witness.status = .ub)) = true
    · rw [if_pos hany] at hub
      exact absurd rfl hub
    rw [if_neg hany] at hub hsm ⊢
    have nub : ∀ i ∈ ins2, i.witness.status ≠ .ub := by
      intro i hi c
      exact hany (List.any_eq_true.2 ⟨i, hi, by simpa using c⟩)
    have fin : ∀ i ∈ ins2, WOk i := by
      intro i hi
      refine ⟨nub i hi, ?_⟩
      cases good with
      | true =>
        rw [if_pos rfl] at hsm
        dsimp only at hsm
        rw [(readLock_keep _ _ _).1] at hsm
        exact hsm i hi
      | false =>
        rw [if_neg (by simp)] at hsm
        exact hsm i hi
    obtain ⟨ins', u1, h1, B1, x1, a1, st1, ns1⟩ := first_at (back fin)
    have C2 := contWit_at st1.wf (st1.generous g) a1 s1 (by rw [er]; exact fin)
    dsimp only at C2
    rw [er] at C2
    obtain ⟨ins'', u2, h2, B2, x2, a2, st2, ns2⟩ := C2
    rw [x1, C.bind_ok]
    dsimp only
    rw [x2, C.bind_ok]
    dsimp only
    have ns := ns2 (ns1 hs hc)
    cases good with
    | true =>
      rw [if_pos rfl] at hub ⊢
      rw [if_pos rfl]
      dsimp only at hub ⊢
      obtain ⟨o', x3, a3⟩ := readLock_at a2 (br + n + m) s2 hub
      exact ⟨o', u2, h2, B2, x3, a3, st1.trans st2, ns⟩
    | false =>
      rw [if_neg (by simp), if_neg (by simp)]
      exact ⟨_, u2, h2, B2, rfl, finish_at a2 _ _ s2, st1.trans st2, ns⟩
  · have e1 : o.readWitnesses br s h = o.readLock br s h := by
      unfold readWitnesses
      rw [if_neg (esw ▸ hf)]
    have e2 : v.readWitnesses br s = v.readLock br s := by
      unfold Tx.readWitnesses
      rw [if_neg hf]
    rw [e1, e2]
    rw [e2] at hub
    obtain ⟨o', x, a'⟩ := readLock_at a br s hub
    exact ⟨o', u, h, A, x, a', Step.refl w ((TxAt.stable _ _ _).live a), hs⟩

/-! #### Outputs -/

/-- One if there are no elements. -/
def missing {α : Type} (l : List α) : Nat := if l.length = 0 then 1 else 0

theorem not_ub_back {α : Type} {f : α → PStream → α × Nat × PStream} {st : α → Status} (xs : List α) (s : PStream)
    (h : ∀ x ∈ (Tx.contLoop f st xs s).1, st x ≠ .ub) : ∀ x ∈ xs, st x ≠ .ub :=
  contLoop_back (K := fun x => st x ≠ .ub) (fun x _ hi _ => by rw [hi]; simp) xs s h

theorem readOutCount_at (w : h.Wf) (g : h.Generous) (a : TxAt o v u h A) (br : Nat) (s : PStream) (hk : ∀ x ∈ (v.readOutCount br s).1.txOuts, x.status ≠ .ub) :
    ∃ o' h' B E, o.readOutCount br s h = .ok (o', (v.readOutCount br s).2.1, (v.readOutCount br s).2.2, h') ∧ TxAt o' (v.readOutCount br s).1 u h' B ∧
      Step h h' A (B ∪ E) ∧ Disjoint B E ∧ ((br + v.bytesParsed = v.outOffset → v.txOuts = []) → E.card ≤ missing (v.readOutCount br s).1.txOuts) ∧
      (E ≠ ∅ → v.outOffset < (v.readOutCount br s).2.1 + v.bytesParsed) := by
  have ebp : o.bytesParsed = v.bytesParsed := by rw [a.1]
  have ec : (s.avail ∧ br + o.bytesParsed = o.outOffset) = (s.avail ∧ br + v.bytesParsed = v.outOffset) := by rw [outOffset_at a, ebp]
  unfold readOutCount
  unfold Tx.readOutCount at hk ⊢
  by_cases hc : s.avail ∧ br + v.bytesParsed = v.outOffset
  · rw [if_pos hc] at hk ⊢
    rw [if_pos (ec.mpr hc)]
    generalize s.readByte = z at *
    obtain ⟨c, s1⟩ := z
    have len := parseAll_length (f := TxOut.fromStream) (List.replicate c.toNat ({} : TxOut)) s1
    rw [List.length_replicate] at len
    have N := newOuts_at w g a c.toNat s1
    dsimp only at hk ⊢
    rcases er : Tx.parseAll TxOut.fromStream (List.replicate c.toNat ({} : TxOut)) s1 with ⟨outs, n, s2⟩
    rw [er] at hk len N
    dsimp only at hk len N ⊢
    obtain ⟨o', h', B, E, x, a', st, d, hE⟩ := N hk
    refine ⟨o', h', B, E, by rw [x, C.bind_ok]; rfl, a', st, d, fun hv => ?_, fun _ => by omega⟩
    rw [hE (hv hc.2), missing, len]
  · rw [if_neg hc, if_neg (fun c => hc (ec.mp c))]
    exact ⟨o, h, A, ∅, rfl, a, by rw [Finset.union_empty]; exact Step.refl w ((TxAt.stable _ _ _).live a), by simp, fun _ => by simp, fun c => absurd rfl c⟩

theorem outOffset_congr {v v' : Tx} (h1 : v'.segwitFlag = v.segwitFlag) (h2 : v'.txIns.map (·.length) = v.txIns.map (·.length)) : v'.outOffset = v.outOffset := by
  unfold Tx.outOffset
  rw [h1, h2]

theorem readLock_bytes (v : Tx) (br : Nat) (s : PStream) (hub : (v.readLock br s).1.status ≠ .ub) :
    br + v.bytesParsed ≤ (v.readLock br s).1.bytesParsed ∧ (v.readLock br s).1.outOffset = v.outOffset ∧ (v.readLock br s).1.segwitFlag = v.segwitFlag := by
  unfold Tx.readLock at hub ⊢
  dsimp only at hub ⊢
  generalize s.readN (v.lockOffset + 4 - (br + v.bytesParsed)) = z at *
  obtain ⟨q, s1⟩ := z
  dsimp only at hub ⊢
  by_cases h1 : q ≠ [] ∧ br + v.bytesParsed < v.lockOffset
  · rw [if_pos h1] at hub
    exact absurd rfl hub
  rw [if_neg h1]
  unfold Tx.finish
  dsimp only
  exact ⟨by omega, rfl, rfl⟩

theorem readWitnesses_bytes (v : Tx) (br : Nat) (s : PStream) (hub : (v.readWitnesses br s).1.status ≠ .ub) :
    br + v.bytesParsed ≤ (v.readWitnesses br s).1.bytesParsed ∧ (v.readWitnesses br s).1.outOffset = v.outOffset ∧ (v.readWitnesses br s).1.segwitFlag = v.segwitFlag := by
  unfold Tx.readWitnesses at hub ⊢
  split at hub
  · rename_i hf
    rw [if_pos hf]
    have h1 : (if br + v.bytesParsed = v.witOffset then Tx.parseAll Tx.parseWitness v.txIns s else (v.txIns, 0, s)).1.map (·.length) = v.txIns.map (·.length) := by
      split
      · exact parseAll_same (f := Tx.parseWitness) (g := fun i : TxIn => i.length) (fun _ _ => rfl) _ _
      · rfl
    generalize (if br + v.bytesParsed = v.witOffset then Tx.parseAll Tx.parseWitness v.txIns s else (v.txIns, 0, s)) = F at *
    obtain ⟨ins1, n, s1⟩ := F
    dsimp only at h1 hub ⊢
    have h2 := contLoop_same (f := Tx.parseWitness) (st := fun i => i.witness.status) (g := fun i : TxIn => i.length) (fun _ _ => rfl) ins1 s1
    unfold Tx.contAll at hub ⊢
    generalize Tx.contLoop Tx.parseWitness (fun i => i.witness.status) ins1 s1 = G at *
    obtain ⟨ins2, m, s2, good⟩ := G
    dsimp only at h2 hub ⊢
    generalize (if (ins2.any fun x => decide (x.witness.status = .ub)) = true then some Status.ub else if good = true then none else some Status.failed) = r at *
    cases r with
    | some st => exact ⟨by unfold Tx.finish; dsimp only; omega, outOffset_congr rfl (h2.trans h1), rfl⟩
    | none =>
      obtain ⟨k1, k2, k3⟩ := readLock_bytes _ _ _ hub
      exact ⟨by dsimp only at k1 ⊢; omega, k2.trans (outOffset_congr rfl (h2.trans h1)), k3⟩
  · rename_i hf
    rw [if_neg hf]
    exact readLock_bytes _ _ _ hub

theorem readOuts_bytes (v : Tx) (br : Nat) (s : PStream) (hub : (v.readOuts br s).1.status ≠ .ub) :
    (v.readOutCount br s).2.1 + v.bytesParsed ≤ (v.readOuts br s).1.bytesParsed ∧ br ≤ (v.readOutCount br s).2.1 ∧ (v.readOuts br s).1.outOffset = v.outOffset ∧
      (v.readOuts br s).1.segwitFlag = v.segwitFlag := by
  unfold Tx.readOuts at hub ⊢
  have h1 : (v.readOutCount br s).1.txIns = v.txIns ∧ (v.readOutCount br s).1.bytesParsed = v.bytesParsed ∧ (v.readOutCount br s).1.segwitFlag = v.segwitFlag ∧
      br ≤ (v.readOutCount br s).2.1 := by
    unfold Tx.readOutCount
    split
    · exact ⟨rfl, rfl, rfl, by dsimp only; omega⟩
    · exact ⟨rfl, rfl, rfl, Nat.le_refl _⟩
  generalize v.readOutCount br s = z at *
  obtain ⟨v1, br1, s1⟩ := z
  obtain ⟨h1, h2, h3, h4⟩ := h1
  dsimp only at h1 h2 h3 h4 hub ⊢
  generalize Tx.contAll TxOut.fromStream (fun i => i.status) v1.txOuts s1 = z at *
  obtain ⟨outs, m, s2, r⟩ := z
  dsimp only at hub ⊢
  have ho : v1.outOffset = v.outOffset := outOffset_congr h3 (by rw [h1])
  cases r with
  | some st => exact ⟨by unfold Tx.finish; dsimp only; omega, h4, ho, h3⟩
  | none =>
    obtain ⟨k1, k2, k3⟩ := readWitnesses_bytes _ _ _ hub
    exact ⟨by dsimp only at k1 ⊢; omega, h4, k2.trans ho, k3.trans h3⟩

theorem readIns_bytes (v : Tx) (br : Nat) (s : PStream) (hub : (v.readIns br s).1.status ≠ .ub) :
    br + v.bytesParsed ≤ (v.readIns br s).1.bytesParsed ∧ (v.readIns br s).1.segwitFlag = v.segwitFlag := by
  unfold Tx.readIns at hub ⊢
  generalize Tx.contAll TxIn.fromStream (fun i => i.status) v.txIns s = z at *
  obtain ⟨ins, m, s2, r⟩ := z
  dsimp only at hub ⊢
  cases r with
  | some st => exact ⟨by unfold Tx.finish; dsimp only; omega, rfl⟩
  | none =>
    obtain ⟨k1, k2, -, k3⟩ := readOuts_bytes _ _ _ hub
    exact ⟨by dsimp only at k1 k2 ⊢; omega, k3⟩

theorem readOutCount_keep (v : Tx) (br : Nat) (s : PStream) : (v.readOutCount br s).1.txIns = v.txIns ∧ (v.readOutCount br s).1.bytesParsed = v.bytesParsed ∧
    (v.readOutCount br s).1.segwitFlag = v.segwitFlag ∧ br ≤ (v.readOutCount br s).2.1 := by
  unfold Tx.readOutCount
  split
  · exact ⟨rfl, rfl, rfl, by dsimp only; omega⟩
  · exact ⟨rfl, rfl, rfl, Nat.le_refl _⟩

theorem readWitnesses_keep (v : Tx) (br : Nat) (s : PStream) : (v.readWitnesses br s).1.txIns.length = v.txIns.length ∧ (v.readWitnesses br s).1.txOuts = v.txOuts := by
  unfold Tx.readWitnesses
  split
  · dsimp only
    have h1 : (if br + v.bytesParsed = v.witOffset then Tx.parseAll Tx.parseWitness v.txIns s else (v.txIns, 0, s)).1.length = v.txIns.length := by
      split
      · exact parseAll_length _ _
      · rfl
    generalize (if br + v.bytesParsed = v.witOffset then Tx.parseAll Tx.parseWitness v.txIns s else (v.txIns, 0, s)) = F at *
    obtain ⟨ins1, n, s1⟩ := F
    dsimp only at h1 ⊢
    have h2 := contLoop_length (f := Tx.parseWitness) (st := fun i => i.witness.status) ins1 s1
    unfold Tx.contAll
    generalize Tx.contLoop Tx.parseWitness (fun i => i.witness.status) ins1 s1 = G at *
    obtain ⟨ins2, m, s2, good⟩ := G
    dsimp only at h2 ⊢
    split
    · exact ⟨h2.trans h1, rfl⟩
    · rw [(readLock_keep _ _ _).1, (readLock_keep _ _ _).2]
      exact ⟨h2.trans h1, rfl⟩
  · rw [(readLock_keep _ _ _).1, (readLock_keep _ _ _).2]
    exact ⟨rfl, rfl⟩

/-- Nothing that has been read is read again. -/
def Clean (v : Tx) (pos : Nat) : Prop :=
  (∀ i ∈ v.txIns, WD i) ∨ ((∀ i ∈ v.txIns, i.Settled) ∧ (∀ o ∈ v.txOuts, o.Settled) ∧ v.witOffset < pos)

theorem readOuts_eq (o : HTx) (br : Nat) (s : PStream) (h : Heap) : o.readOuts br s h = (do
    h.access o.inPtr o.txIns.length
    let t ← o.readOutCount br s h
    t.2.2.2.access t.1.outPtr t.1.txOuts.length
    let c ← contLoop HTxOut.fromStream (·.status) t.1.txOuts t.2.2.1 t.2.2.2
    if c.2.2.2.1 then ({ t.1 with txOuts := c.1 } : HTx).readWitnesses (t.2.1 + c.2.1) c.2.2.1 c.2.2.2.2
    else return ({ t.1 with txOuts := c.1 } : HTx).finish .failed (t.2.1 + c.2.1) c.2.2.1 c.2.2.2.2) := by
  rfl

/-- Transaction.cpp:410-485. -/
theorem readOuts_at (w : h.Wf) (g : h.Generous) (a : TxAt o v u h A) (br : Nat) (s : PStream) (hs : ∀ i ∈ u, ¬ HTxIn.stale i)
    (hc : Clean v (br + v.bytesParsed)) (hub : (v.readOuts br s).1.status ≠ .ub)
    (hsm : ∀ i ∈ (v.readOuts br s).1.txIns, i.witness.arr.length < 2 ^ 62) :
    ∃ o' u' h' B E, o.readOuts br s h = .ok (o', (v.readOuts br s).2.1, (v.readOuts br s).2.2, h') ∧
      TxAt o' (v.readOuts br s).1 u' h' B ∧ Step h h' A (B ∪ E) ∧ Disjoint B E ∧ (∀ i ∈ u', ¬ HTxIn.stale i) ∧
      ((br + v.bytesParsed = v.outOffset → v.txOuts = []) → E.card ≤ missing (v.readOuts br s).1.txOuts) ∧ (v.readOuts br s).1.txIns.length = v.txIns.length ∧
      (E ≠ ∅ → (v.readOuts br s).1.outOffset < (v.readOuts br s).1.bytesParsed) := by
  have by0 := readOuts_bytes v br s hub
  rw [readOuts_eq o br s h, (access_at a).1, C.bind_ok]
  have oc := readOutCount_at w g a br s
  have keep := readOutCount_keep v br s
  have idle : (∀ o ∈ v.txOuts, o.Settled) ∧ v.witOffset < br + v.bytesParsed → v.readOutCount br s = (v, br, s) := by
    rintro ⟨-, h2⟩
    unfold Tx.readOutCount
    rw [if_neg]
    rintro ⟨-, h3⟩
    unfold Tx.witOffset at h2
    omega
  unfold Tx.readOuts at hub hsm by0 ⊢
  rcases er1 : v.readOutCount br s with ⟨v1, br1, s1⟩
  rw [er1] at oc keep idle hub hsm by0
  dsimp only at oc keep hub hsm by0 ⊢
  have back := not_ub_back (f := TxOut.fromStream) (st := fun i => i.status) v1.txOuts s1
  have clen := contLoop_length (f := TxOut.fromStream) (st := fun i => i.status) v1.txOuts s1
  have idle2 : (∀ o ∈ v1.txOuts, o.Settled) → Tx.contLoop TxOut.fromStream (fun i => i.status) v1.txOuts s1 = (v1.txOuts, 0, s1, true) := fun hd =>
    contLoop_still v1.txOuts s1 (fun x hx => by
      rcases hd x hx with h | h
      · exact Or.inl h
      · exact Or.inr ⟨h.1, fun s => (hd x hx).stays h.1 s⟩)
  unfold Tx.contAll at hub hsm by0 ⊢
  have co : ∀ {o u h A}, Heap.Wf h → h.Generous → TxAt o v1 u h A → _ := fun {o u h A} w g a => contOuts_at (o := o) (v := v1) (u := u) (h := h) (A := A) w g a s1
  rcases er : Tx.contLoop TxOut.fromStream (fun i => i.status) v1.txOuts s1 with ⟨outs2, m, s2, good⟩
  rw [er] at hub hsm back clen idle2 by0
  dsimp only at hub hsm back clen idle2 by0 ⊢
  by_cases hany : (outs2.any fun x => decide (x.status = .ub)) = true
  · rw [if_pos hany] at hub
    exact absurd rfl hub
  rw [if_neg hany] at hub hsm by0 ⊢
  have nub : ∀ i ∈ outs2, i.status ≠ .ub := by
    intro i hi c
    exact hany (List.any_eq_true.2 ⟨i, hi, by simpa using c⟩)
  obtain ⟨o1, h1, B1, E1, x1, a1, st1, d1, hE1, hN1⟩ := oc (back nub)
  have C2 := co st1.wf (st1.generous g) a1
  rw [er] at C2
  obtain ⟨outs', h2, B2, x2, a2, st2⟩ := C2 nub
  rw [x1, C.bind_ok]
  dsimp only
  rw [(access_at a1).2, C.bind_ok, x2, C.bind_ok]
  dsimp only
  have st2' : Step h1 h2 B1 (B2 ∪ ∅) := by rw [Finset.union_empty]; exact st2
  obtain ⟨sL, dL, cL⟩ := Step.lose st1 d1 st2' (by simp)
  rw [Finset.union_empty] at sL dL
  have hE : (br + v.bytesParsed = v.outOffset → v.txOuts = []) → E1.card ≤ missing outs2 := by
    intro hv
    refine Nat.le_trans (hE1 hv) ?_
    unfold missing
    rw [clen]
  cases good with
  | true =>
    rw [if_pos rfl] at hub hsm ⊢
    rw [if_pos rfl]
    dsimp only at hub hsm ⊢
    have wc : br1 + m + v1.bytesParsed = ({ v1 with txOuts := outs2 } : Tx).witOffset → ∀ i ∈ v1.txIns, WD i := by
      rw [keep.1]
      rcases hc with hc | ⟨hi, ho, hw⟩
      · exact fun _ => hc
      · have e1 := idle ⟨ho, hw⟩
        injection e1 with e1 e2
        injection e2 with e2 e3
        subst e1 e2 e3
        have e4 := idle2 ho
        injection e4 with e4 e5
        injection e5 with e5 e6
        subst e4 e5
        intro c
        exact absurd c (by show ¬ (br1 + 0 + v1.bytesParsed = v1.witOffset); omega)
    obtain ⟨o', u3, h3, B3, x3, a3, st3, ns3⟩ := readWitnesses_at (st2.wf) (st2.generous (st1.generous g)) a2 (br1 + m) s2 hs wc hub hsm
    have st3' : Step h2 h3 B2 (B3 ∪ ∅) := by rw [Finset.union_empty]; exact st3
    obtain ⟨sM, dM, cM⟩ := Step.lose sL dL st3' (by simp)
    rw [Finset.union_empty] at sM dM
    rw [if_pos rfl] at by0
    refine ⟨o', u3, h3, B3, E1, x3, a3, sM, dM, ns3, ?_, ?_, fun c => ?_⟩
    · rw [(readWitnesses_keep _ _ _).2]
      exact hE
    · rw [(readWitnesses_keep _ _ _).1]
      exact congrArg _ keep.1
    · have k1 := hN1 c
      obtain ⟨k2, -, k3, -⟩ := by0
      dsimp only at k2 k3
      rw [k3]
      exact Nat.lt_of_lt_of_le k1 k2
  | false =>
    rw [if_neg (by simp)] at by0
    rw [if_neg (by simp), if_neg (by simp)]
    refine ⟨_, u, h2, B2, E1, rfl, finish_at a2 _ _ s2, sL, dL, hs, hE, congrArg _ keep.1, fun c => ?_⟩
    have k1 := hN1 c
    obtain ⟨k2, -, k3, -⟩ := by0
    dsimp only at k2 k3 ⊢
    rw [k3]
    exact Nat.lt_of_lt_of_le k1 k2

/-- Transaction.cpp:400-485. -/
theorem readIns_at (w : h.Wf) (g : h.Generous) (a : TxAt o v u h A) (br : Nat) (s : PStream) (hs : ∀ i ∈ u, ¬ HTxIn.stale i)
    (hc : Clean v (br + v.bytesParsed)) (hub : (v.readIns br s).1.status ≠ .ub)
    (hsm : ∀ i ∈ (v.readIns br s).1.txIns, i.witness.arr.length < 2 ^ 62) :
    ∃ o' u' h' B E, o.readIns br s h = .ok (o', (v.readIns br s).2.1, (v.readIns br s).2.2, h') ∧
      TxAt o' (v.readIns br s).1 u' h' B ∧ Step h h' A (B ∪ E) ∧ Disjoint B E ∧ (∀ i ∈ u', ¬ HTxIn.stale i) ∧
      ((v.txOuts ≠ [] → (∀ i ∈ v.txIns, i.Settled) ∧ v.outOffset < br + v.bytesParsed) → E.card ≤ missing (v.readIns br s).1.txOuts) ∧ (v.readIns br s).1.txIns.length = v.txIns.length ∧
      (E ≠ ∅ → (v.readIns br s).1.outOffset < (v.readIns br s).1.bytesParsed) := by
  have e0 : o.readIns br s h = (do
    h.access o.inPtr o.txIns.length
    let c ← contLoop HTxIn.fromStream (·.status) o.txIns s h
    if c.2.2.2.1 then ({ o with txIns := c.1 } : HTx).readOuts (br + c.2.1) c.2.2.1 c.2.2.2.2
    else return ({ o with txIns := c.1 } : HTx).finish .failed (br + c.2.1) c.2.2.1 c.2.2.2.2) := rfl
  rw [e0, (access_at a).1, C.bind_ok]
  unfold Tx.readIns at hub hsm ⊢
  unfold Tx.contAll at hub hsm ⊢
  have clen := contLoop_length (f := TxIn.fromStream) (st := fun i => i.status) v.txIns s
  have cwd := contLoop_all (f := TxIn.fromStream) (st := fun i => i.status) (R := WD) (fun x s hx _ => by unfold WD; rw [fromStream_witness]; exact hx) v.txIns s
  have idle2 : (∀ o ∈ v.txIns, o.Settled) → Tx.contLoop TxIn.fromStream (fun i => i.status) v.txIns s = (v.txIns, 0, s, true) := fun hd =>
    contLoop_still v.txIns s (fun x hx => by
      rcases hd x hx with h | h
      · exact Or.inl h
      · exact Or.inr ⟨h.1, fun s => (hd x hx).stays h.1 s⟩)
  have co := contIns_at w g a s
  rcases er : Tx.contLoop TxIn.fromStream (fun i => i.status) v.txIns s with ⟨ins2, m, s2, good⟩
  rw [er] at hub hsm clen idle2 co cwd
  dsimp only at hub hsm clen idle2 co cwd ⊢
  by_cases hany : (ins2.any fun x => decide (x.status = .ub)) = true
  · rw [if_pos hany] at hub
    exact absurd rfl hub
  rw [if_neg hany] at hub hsm ⊢
  have nub : ∀ i ∈ ins2, i.status ≠ .ub := by
    intro i hi c
    exact hany (List.any_eq_true.2 ⟨i, hi, by simpa using c⟩)
  obtain ⟨ins', u2, h2, B2, x2, a2, st2, ns⟩ := co nub
  rw [x2, C.bind_ok]
  dsimp only
  cases good with
  | true =>
    rw [if_pos rfl] at hub hsm ⊢
    rw [if_pos rfl]
    dsimp only at hub hsm ⊢
    have wc : Clean { v with txIns := ins2 } (br + m + v.bytesParsed) := by
      rcases hc with hc | ⟨hi, ho, hw⟩
      · exact Or.inl (cwd hc)
      · have e4 := idle2 hi
        injection e4 with e4 e5
        injection e5 with e5 e6
        subst e4 e5
        exact Or.inr ⟨hi, ho, hw⟩
    obtain ⟨o', u3, h3, B3, E3, x3, a3, st3, d3, ns3, hE, hl, hN⟩ := readOuts_at st2.wf (st2.generous g) a2 (br + m) s2 (ns hs) wc hub hsm
    refine ⟨o', u3, h3, B3, E3, x3, a3, st2.trans st3, d3, ns3, fun hy => hE fun hpos => ?_, hl.trans clen, hN⟩
    by_contra hne
    obtain ⟨y1, y2⟩ := hy hne
    have e4 := idle2 y1
    injection e4 with e4 e5
    injection e5 with e5 e6
    subst e4 e5
    have hpos' : br + 0 + v.bytesParsed = v.outOffset := hpos
    omega
  | false =>
    rw [if_neg (by simp), if_neg (by simp)]
    exact ⟨_, u2, h2, B2, ∅, rfl, finish_at a2 _ _ s2, by rw [Finset.union_empty]; exact st2, by simp, ns hs, fun _ => by simp, clen, fun c => absurd rfl c⟩

/-! #### The whole -/

/-- Transaction.cpp:356-363. -/
theorem start_at (w : h.Wf) (a : TxAt o v u h A) (hs : ∀ i ∈ u, ¬ HTxIn.stale i) :
    ∃ o' u' h' B, o.start h = .ok (o', h') ∧ TxAt o' v.start u' h' B ∧ Step h h' A B ∧ (∀ i ∈ u', ¬ HTxIn.stale i) := by
  have est : o.status = v.status := by rw [a.1]
  unfold start Tx.start
  by_cases hd : v.status = .done
  · rw [est, if_pos hd, if_pos hd]
    obtain ⟨o', h', x, a', st⟩ := clear_at w a hs
    rw [x, C.bind_ok]
    exact ⟨_, [], h', ∅, rfl, a'.scalars .incomplete 0 0 0 0, st, by simp⟩
  · rw [est, if_neg hd, if_neg hd]
    exact ⟨_, u, h, A, rfl, ⟨by dsimp only; rw [a.1], a.2⟩, Step.refl w ((TxAt.stable _ _ _).live a), hs⟩

theorem readFlag_at (a : TxAt o v u h A) (br : Nat) (s : PStream) : o.readFlag br s = v.readFlag br s := by
  have e1 : o.segwitFlag = v.segwitFlag := by rw [a.1]
  have e2 : o.bytesParsed = v.bytesParsed := by rw [a.1]
  unfold readFlag Tx.readFlag
  rw [e1, e2]

/-- Transaction.cpp:392-399. -/
theorem readSegwitCount_at (w : h.Wf) (g : h.Generous) (a : TxAt o v u h A) (br : Nat) (s : PStream) (hs : ∀ i ∈ u, ¬ HTxIn.stale i)
    (hk : ∀ x ∈ (v.readSegwitCount br s).1.txIns, x.status ≠ .ub) :
    ∃ o' u' h' B E, o.readSegwitCount br s h = .ok (o', (v.readSegwitCount br s).2.1, (v.readSegwitCount br s).2.2, h') ∧ TxAt o' (v.readSegwitCount br s).1 u' h' B ∧
      Step h h' A (B ∪ E) ∧ Disjoint B E ∧ (∀ i ∈ u', ¬ HTxIn.stale i) ∧
      ((v.segwitFlag > 0 → br + v.bytesParsed = 6 → v.txIns = []) → E.card ≤ missing (v.readSegwitCount br s).1.txIns) ∧
      (E ≠ ∅ → v.segwitFlag > 0 ∧ 6 < (v.readSegwitCount br s).2.1 + v.bytesParsed) := by
  have e1 : o.segwitFlag = v.segwitFlag := by rw [a.1]
  have e2 : o.bytesParsed = v.bytesParsed := by rw [a.1]
  unfold readSegwitCount
  unfold Tx.readSegwitCount at hk ⊢
  have ec : (s.avail ∧ o.segwitFlag > 0 ∧ br + o.bytesParsed = 6) = (s.avail ∧ v.segwitFlag > 0 ∧ br + v.bytesParsed = 6) := by rw [e1, e2]
  by_cases hc : s.avail ∧ v.segwitFlag > 0 ∧ br + v.bytesParsed = 6
  · rw [if_pos hc] at hk ⊢
    rw [if_pos (ec.mpr hc)]
    generalize s.readByte = z at *
    obtain ⟨c, s1⟩ := z
    have len := parseAll_length (f := TxIn.fromStream) (List.replicate c.toNat ({} : TxIn)) s1
    rw [List.length_replicate] at len
    have N := newIns_at w g a c.toNat s1
    dsimp only at hk ⊢
    rcases er : Tx.parseAll TxIn.fromStream (List.replicate c.toNat ({} : TxIn)) s1 with ⟨ins, n, s2⟩
    rw [er] at hk len N
    dsimp only at hk len N ⊢
    obtain ⟨o', u', h', B, E, x, a', st, d, ns, hE⟩ := N hk
    refine ⟨o', u', h', B, E, by rw [x, C.bind_ok]; rfl, a', st, d, ns, fun hv => ?_, fun _ => ⟨hc.2.1, by omega⟩⟩
    rw [hE (hv hc.2.1 hc.2.2), missing, len]
  · rw [if_neg hc, if_neg (fun c => hc (ec.mp c))]
    exact ⟨o, u, h, A, ∅, rfl, a, by rw [Finset.union_empty]; exact Step.refl w ((TxAt.stable _ _ _).live a), by simp, hs, fun _ => by simp, fun c => absurd rfl c⟩

/-- Transaction.cpp:365-382. -/
theorem readVersion_at (w : h.Wf) (g : h.Generous) (a : TxAt o v u h A) (s : PStream) (hs : ∀ i ∈ u, ¬ HTxIn.stale i)
    (hf : v.segwitFlag > 0 → 5 ≤ v.bytesParsed) (hk : (v.readVersion s).1.segwitFlag = 0 → ∀ x ∈ (v.readVersion s).1.txIns, x.status ≠ .ub) :
    ∃ o' u' h' B E, o.readVersion s h = .ok (o', (v.readVersion s).2.1, (v.readVersion s).2.2, h') ∧ TxAt o' (v.readVersion s).1 u' h' B ∧
      Step h h' A (B ∪ E) ∧ Disjoint B E ∧ (∀ i ∈ u', ¬ HTxIn.stale i) ∧
      ((v.bytesParsed ≤ 4 → v.txIns = []) → E.card = 0) := by
  have e1 : o.segwitFlag = v.segwitFlag := by rw [a.1]
  have e2 : o.bytesParsed = v.bytesParsed := by rw [a.1]
  have e3 : o.version = v.version := by rw [a.1]
  unfold readVersion
  unfold Tx.readVersion at hk ⊢
  rw [e2, e3]
  generalize s.readN (4 - v.bytesParsed) = z at *
  obtain ⟨q, s1⟩ := z
  dsimp only at hk ⊢
  have a1 : TxAt { o with version := accLE v.version v.bytesParsed q, bytesParsed := v.bytesParsed } { v with version := accLE v.version v.bytesParsed q } u h A :=
    ⟨by dsimp only; rw [a.1], a.2⟩
  by_cases hc : s1.avail ∧ q.length + v.bytesParsed = 4
  · rw [if_pos hc] at hk ⊢
    rw [if_pos hc]
    have h0 : v.segwitFlag = 0 := by
      by_contra c
      have := hf (Nat.pos_of_ne_zero c)
      omega
    generalize s1.readByte = z at *
    obtain ⟨c, s2⟩ := z
    dsimp only at hk ⊢
    by_cases h00 : c = 0
    · rw [if_pos h00, if_pos h00]
      exact ⟨_, u, h, A, ∅, rfl, ⟨by dsimp only; rw [a.1], a.2⟩, by rw [Finset.union_empty]; exact Step.refl w ((TxAt.stable _ _ _).live a), by simp, hs,
        fun _ => rfl⟩
    · rw [if_neg h00] at hk ⊢
      rw [if_neg h00]
      have N := newIns_at w g a1 c.toNat s2
      rcases er : Tx.parseAll TxIn.fromStream (List.replicate c.toNat ({} : TxIn)) s2 with ⟨ins, n, s3⟩
      rw [er] at hk N
      dsimp only at hk N ⊢
      obtain ⟨o', u', h', B, E, x, a', st, d, ns, hE⟩ := N (hk h0)
      refine ⟨o', u', h', B, E, ?_, a', st, d, ns, fun hv => ?_⟩
      · rw [x, C.bind_ok]
        rfl
      · rw [hE (hv (by omega)), if_neg]
        intro c0
        exact h00 (UInt8.toNat_inj.1 (by simpa using c0))
  · rw [if_neg hc, if_neg hc]
    exact ⟨_, u, h, A, ∅, rfl, a1, by rw [Finset.union_empty]; exact Step.refl w ((TxAt.stable _ _ _).live a), by simp, hs,
        fun _ => rfl⟩

theorem readVersion_keep (v : Tx) (s : PStream) : (v.readVersion s).1.bytesParsed = v.bytesParsed ∧ (v.readVersion s).1.txOuts = v.txOuts ∧
    (v.segwitFlag > 0 → (v.readVersion s).1.segwitFlag > 0) ∧ ((v.readVersion s).1.segwitFlag > 0 → v.segwitFlag > 0 ∨ 5 ≤ (v.readVersion s).2.1 + v.bytesParsed) ∧
    ((v.readVersion s).1.status = v.status) := by
  unfold Tx.readVersion
  dsimp only
  split
  · rename_i hc
    split
    · exact ⟨rfl, rfl, fun _ => Nat.one_pos, fun _ => Or.inr (by dsimp only; omega), rfl⟩
    · exact ⟨rfl, rfl, id, fun h => Or.inl h, rfl⟩
  · exact ⟨rfl, rfl, id, fun h => Or.inl h, rfl⟩

theorem readSegwitCount_keep (v : Tx) (br : Nat) (s : PStream) : (v.readSegwitCount br s).1.bytesParsed = v.bytesParsed ∧ (v.readSegwitCount br s).1.txOuts = v.txOuts ∧
    (v.readSegwitCount br s).1.segwitFlag = v.segwitFlag ∧ br ≤ (v.readSegwitCount br s).2.1 ∧ ((v.readSegwitCount br s).1.status = v.status) := by
  unfold Tx.readSegwitCount
  split
  · exact ⟨rfl, rfl, rfl, by dsimp only; omega, rfl⟩
  · exact ⟨rfl, rfl, rfl, Nat.le_refl _, rfl⟩

theorem readSegwitCount_flag (v : Tx) (br : Nat) (s : PStream) : (v.readSegwitCount br s).1.segwitFlag = v.segwitFlag := by
  unfold Tx.readSegwitCount
  split <;> rfl

theorem readIns_not_ub (v : Tx) (br : Nat) (s : PStream) (hub : (v.readIns br s).1.status ≠ .ub) : ∀ x ∈ v.txIns, x.status ≠ .ub := by
  refine not_ub_back (f := TxIn.fromStream) (st := fun i => i.status) v.txIns s (fun x hx c => ?_)
  unfold Tx.readIns Tx.contAll at hub
  generalize Tx.contLoop TxIn.fromStream (fun i => i.status) v.txIns s = F at *
  obtain ⟨ins, m, s1, good⟩ := F
  dsimp only at hub hx
  rw [if_pos (List.any_eq_true.2 ⟨x, hx, by simpa using c⟩)] at hub
  exact hub rfl

theorem _root_.UB.Tx.Good.clean {v : Tx} {pos : Nat} (g : v.Good pos) : Clean v pos := by
  rcases g.wit with d | ⟨d1, d2⟩
  · exact Or.inl fun i hi _ => by rw [d i hi]
  · exact Or.inr ⟨d1.1, d1.2, d2⟩

/-- Transaction.cpp:352-486. -/
theorem fromStream_at (w : h.Wf) (g : h.Generous) (a : TxAt o v u h A) (s : PStream) (hs : ∀ i ∈ u, ¬ HTxIn.stale i)
    (hr : v.Steady) (hub : (v.fromStream s).1.status ≠ .ub) (hsm : ∀ i ∈ (v.fromStream s).1.txIns, i.witness.arr.length < 2 ^ 62) :
    ∃ o' u' h' B E, o.fromStream s h = .ok (o', (v.fromStream s).2.1, (v.fromStream s).2.2, h') ∧ TxAt o' (v.fromStream s).1 u' h' B ∧
      Step h h' A (B ∪ E) ∧ Disjoint B E ∧ (∀ i ∈ u', ¬ HTxIn.stale i) ∧ E.card ≤ (v.fromStream s).1.zeroCounts := by
  have est : o.status = v.status := by rw [a.1]
  unfold fromStream
  unfold Tx.fromStream at hub hsm ⊢
  rw [est]
  by_cases hst : v.status = .failed ∨ v.status = .ub
  · rw [if_pos hst, if_pos hst]
    exact ⟨o, u, h, A, ∅, rfl, a, by rw [Finset.union_empty]; exact Step.refl w ((TxAt.stable _ _ _).live a), by simp, hs, by simp⟩
  rw [if_neg hst] at hub hsm ⊢
  rw [if_neg hst]
  obtain ⟨o0, u0, h0, B0, x0, a0, st0, ns0⟩ := start_at w a hs
  rw [x0, C.bind_ok]
  dsimp only
  have g0 := Tx.start_good hr hst
  have V := readVersion_at st0.wf (st0.generous g) a0 s ns0 g0.flag
  obtain ⟨g1, e1⟩ := Tx.readVersion_good v.start s g0
  generalize hv0 : v.start = v0 at *
  rcases er1 : v0.readVersion s with ⟨v1, br1, s1⟩
  rw [er1] at V g1 e1 hub hsm
  dsimp only at V g1 e1 hub hsm ⊢
  have F : v1.segwitFlag = 0 → v1.readFlag br1 s1 = (true, br1, s1) := by
    intro c
    unfold Tx.readFlag
    rw [if_neg]
    rintro ⟨-, c', -⟩
    omega
  have Fle : br1 ≤ (v1.readFlag br1 s1).2.1 := by
    unfold Tx.readFlag
    split
    · dsimp only; omega
    · exact Nat.le_refl _
  have RF := fun {o1 u1 h1 B1} (a1 : TxAt o1 v1 u1 h1 B1) => readFlag_at a1 br1 s1
  have hin0 : v0.bytesParsed ≤ 4 → v0.txIns = [] := fun h4 => by
    by_contra hne
    have := (g0.inpos hne).1
    omega
  rcases er2 : v1.readFlag br1 s1 with ⟨good, br2, s2⟩
  rw [er2] at F Fle hub hsm
  dsimp only at F Fle hub hsm ⊢
  cases good with
  | false =>
    rw [if_neg (by simp)]
    obtain ⟨o1, u1, h1, B1, E1, x1, a1, st1, d1, ns1, hE1⟩ := V (fun c => by have := F c; simp at this)
    rw [x1, C.bind_ok]
    dsimp only
    rw [RF a1, er2]
    dsimp only
    rw [if_neg (by simp)]
    exact ⟨_, u1, h1, B1, E1, rfl, finish_at a1 _ _ s2, st0.trans st1, d1, ns1, by rw [hE1 hin0]; exact Nat.zero_le _⟩
  | true =>
    rw [if_pos rfl] at hub hsm ⊢
    have g2 : v1.Good (br2 + v1.bytesParsed) := g1.later (by omega)
    have S0 : v1.segwitFlag = 0 → v1.readSegwitCount br2 s2 = (v1, br2, s2) := by
      intro c
      unfold Tx.readSegwitCount
      rw [if_neg]
      rintro ⟨-, c', -⟩
      omega
    obtain ⟨g3, e3⟩ := Tx.readSegwitCount_good v1 br2 s2 g2
    have SC := fun {o1 u1 h1 B1} (w : Heap.Wf h1) (g : h1.Generous) (a1 : TxAt o1 v1 u1 h1 B1) => readSegwitCount_at w g a1 br2 s2
    rcases er3 : v1.readSegwitCount br2 s2 with ⟨v2, br3, s3⟩
    rw [er3] at S0 g3 e3 hub hsm
    dsimp only at g3 e3 hub hsm ⊢
    rw [← e3] at g3
    have nub := readIns_not_ub v2 br3 s3 hub
    obtain ⟨o1, u1, h1, B1, E1, x1, a1, st1, d1, ns1, hE1⟩ := V (fun c => by
      have := S0 c
      injection this with e1 e2
      rw [← e1]
      exact nub)
    have S2 := SC st1.wf (st1.generous (st0.generous g)) a1 ns1
    rw [er3] at S2
    obtain ⟨o2, u2, h2, B2, E2, x2, a2, st2, d2, ns2, hE2, hN2⟩ := S2 nub
    obtain ⟨sL, dL, cL⟩ := Step.lose st1 d1 st2 d2
    rw [x1, C.bind_ok]
    dsimp only
    rw [RF a1, er2]
    dsimp only
    rw [if_pos rfl, x2, C.bind_ok]
    dsimp only
    obtain ⟨o', u3, h3, B3, E3, x3, a3, st3, d3, ns3, hE3, hl3, hN3⟩ := readIns_at sL.wf (st2.generous (st1.generous (st0.generous g))) a2 br3 s3 ns2 g3.clean hub hsm
    obtain ⟨sM, dM, cM⟩ := Step.lose sL dL st3 d3
    refine ⟨o', u3, h3, B3, E1 ∪ E2 ∪ E3, x3, a3, st0.trans sM, dM, ns3, ?_⟩
    rw [cM, cL, hE1 hin0]
    have b2 := hE2 (fun hf h6 => by
      by_contra hne
      have := (g2.inpos hne).2 hf
      omega)
    have b3 := hE3 g3.outpos
    unfold missing at b2 b3
    rw [← hl3] at b2
    simp only [List.length_eq_zero_iff] at b2 b3
    have by3 := readIns_bytes v2 br3 s3 hub
    have c2 : E2.card ≤ if (v2.readIns br3 s3).1.txIns = [] ∧ 0 < (v2.readIns br3 s3).1.segwitFlag ∧ 6 < (v2.readIns br3 s3).1.bytesParsed then 1 else 0 := by
      by_cases hz : E2 = ∅
      · rw [hz]; simp
      · obtain ⟨z1, z2⟩ := hN2 hz
        dsimp only at z2
        have hf2 := readSegwitCount_flag v1 br2 s2
        rw [er3] at hf2
        dsimp only at hf2
        by_cases hn : (v2.readIns br3 s3).1.txIns = []
        · rw [if_pos ⟨hn, by rw [by3.2, hf2]; exact z1, by omega⟩]
          rw [if_pos hn] at b2
          exact b2
        · rw [if_neg hn] at b2
          omega
    have c3 : E3.card ≤ if (v2.readIns br3 s3).1.txOuts = [] ∧ (v2.readIns br3 s3).1.outOffset < (v2.readIns br3 s3).1.bytesParsed then 1 else 0 := by
      by_cases hz : E3 = ∅
      · rw [hz]; simp
      · by_cases hn : (v2.readIns br3 s3).1.txOuts = []
        · rw [if_pos ⟨hn, hN3 hz⟩]
          rw [if_pos hn] at b3
          exact b3
        · rw [if_neg hn] at b3
          omega
    unfold Tx.zeroCounts
    omega

end HTx
end UB
