import Verif.Spec.HeapTxProgram
import Verif.Lemmas.HeapTx

/-! The state of a program with transactions on the heap against the values of its variables. -/

namespace UB
open Heap Spec

/-- A size that is not near the limits of the machine. -/
def Spec.TVal.Small : TVal → Prop
  | .txIn v _ => v.Small
  | .txOut v => v.Small
  | .tx v _ => v.Small

/-- No variable has a size near the limits of the machine, apart from variables in the middle of being parsed: a length that was read need
not be that of anything. -/
def Spec.TVals.DoneSmall (vs : TVals) : Prop := ∀ x v, vs x = some v → v.Done → v.Small

/-- Statements that copy need such sizes. -/
def TSized (vs : TVals) : TOp → Prop
  | .newTx _ | .destroy _ => True
  | _ => vs.DoneSmall

/-- A variable has the given value, with the given blocks. -/
def HasVal : Option TObj → Option TVal → HProp
  | none, none => fun _ A => A = ∅
  | some (.txIn o), some (.txIn v e) => InAt o (v, e)
  | some (.txOut o), some (.txOut v) => OutAt o v
  | some (.tx o), some (.tx v e) => fun h A => TxAt o v (v.txIns.zip e) h A ∧ e.length = v.txIns.length
  | _, _ => fun _ _ => False

theorem HasVal.stable (o : Option TObj) (v : Option TVal) : Stable (HasVal o v) := by
  have bad : Stable (fun _ _ => False) := ⟨fun h => h.elim, fun _ _ _ _ h => h.elim⟩
  match o, v with
  | none, none => exact ⟨fun h q hq => by rw [show _ = ∅ from h] at hq; simp at hq, fun _ _ _ _ h => h⟩
  | none, some _ => exact bad
  | some (.txIn o), none => exact bad
  | some (.txOut o), none => exact bad
  | some (.tx o), none => exact bad
  | some (.txIn o), some (.txIn v e) => exact InAt.stable _ _
  | some (.txIn o), some (.txOut v) => exact bad
  | some (.txIn o), some (.tx v e) => exact bad
  | some (.txOut o), some (.txIn v e) => exact bad
  | some (.txOut o), some (.txOut v) => exact OutAt.stable _ _
  | some (.txOut o), some (.tx v e) => exact bad
  | some (.tx o), some (.txIn v e) => exact bad
  | some (.tx o), some (.txOut v) => exact bad
  | some (.tx o), some (.tx v e) =>
    exact ⟨fun h => (TxAt.stable _ _ _).live h.1, fun w s hl d h => ⟨(TxAt.stable _ _ _).keep w s hl d h.1, h.2⟩⟩

/-- The variables have the given values, every block has at most one owner, and the blocks without owner are those of `L`. -/
structure TMem (W : TWorld) (vs : TVals) (ow : Nat → Finset Nat) (L : Finset Nat) : Prop where
  wf : W.heap.Wf
  vals : ∀ x, HasVal (W.objs x) (vs x) W.heap (ow x)
  sep : ∀ x y, x ≠ y → Disjoint (ow x) (ow y)
  lost : ∀ x, Disjoint (ow x) L
  live : ∀ q, W.heap.blocks q ≠ none ↔ (∃ x, q ∈ ow x) ∨ q ∈ L

/-- The same, and all scripts are complete. -/
structure TInv (W : TWorld) (vs : TVals) (ow : Nat → Finset Nat) (L : Finset Nat) : Prop extends TMem W vs ow L where
  done : ∀ x v, vs x = some v → v.Done

theorem TInv.init (denies : Nat → Nat → Bool) : TInv (TWorld.init denies) (fun _ => none) (fun _ => ∅) ∅ where
  wf := ⟨rfl, fun _ _ => rfl, fun _ _ _ h => by cases h⟩
  vals := fun _ => rfl
  sep := fun _ _ _ => by simp
  lost := fun _ => by simp
  live := fun q => by simp [TWorld.init]
  done := fun _ _ h => by cases h

/-- Whose blocks. -/
def owput (ow : Nat → Finset Nat) (x : Nat) (B : Finset Nat) : Nat → Finset Nat := fun y => if y = x then B else ow y

/-- The variable `x` gets a new value. -/
theorem TMem.put {W : TWorld} {vs : TVals} {ow : Nat → Finset Nat} {L : Finset Nat} (I : TMem W vs ow L) {x : Nat} {h' : Heap} {o : Option TObj}
    {v : Option TVal} {B E : Finset Nat} (s : Step W.heap h' (ow x) (B ∪ E)) (d : Disjoint B E) (m : HasVal o v h' B) :
    TMem (W.put x o h') (vs.put x v) (owput ow x B) (L ∪ E) ∧ Disjoint L E := by
  have hA : ∀ q ∈ ow x, W.heap.blocks q ≠ none := fun q hq => (I.live q).2 (Or.inl ⟨x, hq⟩)
  have hLl : ∀ q ∈ L, W.heap.blocks q ≠ none := fun q hq => (I.live q).2 (Or.inr hq)
  have hoth : ∀ y, y ≠ x → Disjoint (ow y) (B ∪ E) := fun y hy => s.apart I.wf (fun q hq => (I.live q).2 (Or.inl ⟨y, hq⟩)) (I.sep y x hy)
  have hL : Disjoint L (B ∪ E) := s.apart I.wf hLl (I.lost x).symm
  rw [Finset.disjoint_union_right] at hL
  refine ⟨⟨s.wf, ?_, ?_, ?_, ?_⟩, hL.2⟩
  · intro y
    show HasVal (if y = x then o else W.objs y) (if y = x then v else vs y) h' (if y = x then B else ow y)
    by_cases hy : y = x
    · rw [if_pos hy, if_pos hy, if_pos hy]; exact m
    · rw [if_neg hy, if_neg hy, if_neg hy]
      exact (HasVal.stable _ _).keep I.wf s hA (I.sep y x hy) (I.vals y)
  · intro y z hyz
    show Disjoint (if y = x then B else ow y) (if z = x then B else ow z)
    by_cases hy : y = x
    · have hz : z ≠ x := fun e => hyz (hy.trans e.symm)
      rw [if_pos hy, if_neg hz]
      exact (Finset.disjoint_union_right.1 (hoth z hz)).1.symm
    · rw [if_neg hy]
      by_cases hz : z = x
      · rw [if_pos hz]
        exact (Finset.disjoint_union_right.1 (hoth y hy)).1
      · rw [if_neg hz]
        exact I.sep y z hyz
  · intro y
    show Disjoint (if y = x then B else ow y) (L ∪ E)
    rw [Finset.disjoint_union_right]
    by_cases hy : y = x
    · rw [if_pos hy]
      exact ⟨hL.1.symm, d⟩
    · rw [if_neg hy]
      exact ⟨I.lost y, (Finset.disjoint_union_right.1 (hoth y hy)).2⟩
  · intro q
    show h'.blocks q ≠ none ↔ (∃ y, q ∈ if y = x then B else ow y) ∨ q ∈ L ∪ E
    constructor
    · intro hl
      by_cases hB : q ∈ B ∪ E
      · rcases Finset.mem_union.1 hB with hB | hB
        · exact Or.inl ⟨x, by rw [if_pos rfl]; exact hB⟩
        · exact Or.inr (Finset.mem_union_right _ hB)
      · have hq : ¬ (q ∈ ow x ∨ q > W.heap.next) := fun hc => hl (s.dead q hc hB)
        rw [not_or, not_lt] at hq
        rw [s.other q hq.1 hq.2] at hl
        rcases (I.live q).1 hl with ⟨y, hy⟩ | hq2
        · refine Or.inl ⟨y, ?_⟩
          have : y ≠ x := by rintro rfl; exact hq.1 hy
          rw [if_neg this]
          exact hy
        · exact Or.inr (Finset.mem_union_left _ hq2)
    · rintro (⟨y, hy⟩ | hq)
      · by_cases hyx : y = x
        · rw [if_pos hyx] at hy
          exact s.live q (Finset.mem_union_left _ hy)
        · rw [if_neg hyx] at hy
          exact s.alive I.wf (fun q hq => (I.live q).2 (Or.inl ⟨y, hq⟩)) (I.sep y x hyx) q hy
      · rcases Finset.mem_union.1 hq with hq | hq
        · exact s.alive I.wf hLl (I.lost x).symm q hq
        · exact s.live q (Finset.mem_union_right _ hq)

/-- What one statement does: a variable whose value changes becomes complete. -/
structure TMemTo (W : TWorld) (vs : TVals) (L : Finset Nat) (op : TOp) (W' : TWorld) (vs' : TVals) (ow' : Nat → Finset Nat) (E : Finset Nat) : Prop where
  run : W.step op = .ok W'
  mem : TMem W' vs' ow' (L ∪ E)
  dis : Disjoint L E
  denies : W'.heap.denies = W.heap.denies
  val : W.heap.Generous → TSized vs op → vs' = vs.step op
  loss : E.card = tlosses vs op
  fin : ∀ y v, vs' y = some v → vs y = some v ∨ v.Done

/-- What one statement does where all scripts are complete. -/
structure TStepsTo (W : TWorld) (vs : TVals) (L : Finset Nat) (op : TOp) (W' : TWorld) (vs' : TVals) (ow' : Nat → Finset Nat) (E : Finset Nat) : Prop where
  run : W.step op = .ok W'
  inv : TInv W' vs' ow' (L ∪ E)
  dis : Disjoint L E
  denies : W'.heap.denies = W.heap.denies
  val : W.heap.Generous → vs' = vs.step op
  loss : E.card = tlosses vs op

theorem TSized.of {vs : TVals} (h : vs.DoneSmall) {op : TOp} : TSized vs op := by
  cases op <;> first | exact h | trivial

theorem tnoop {W : TWorld} {vs : TVals} {ow : Nat → Finset Nat} {L : Finset Nat} (I : TMem W vs ow L) {op : TOp} (h1 : W.step op = .ok W)
    (h2 : vs.step op = vs) (h3 : tlosses vs op = 0) : ∃ W' vs' ow' E, TMemTo W vs L op W' vs' ow' E :=
  ⟨W, vs, ow, ∅, h1, by simpa using I, by simp, rfl, fun _ _ => h2.symm, by simp [h3], fun _ _ h => Or.inl h⟩

theorem tput {W : TWorld} {vs : TVals} {ow : Nat → Finset Nat} {L : Finset Nat} (I : TMem W vs ow L) {op : TOp} {x : Nat} {h' : Heap} {o : Option TObj}
    {v : Option TVal} {B E : Finset Nat} (h1 : W.step op = .ok (W.put x o h')) (s : Step W.heap h' (ow x) (B ∪ E)) (d : Disjoint B E) (m : HasVal o v h' B)
    (hv : ∀ u, v = some u → u.Done) (hs : W.heap.Generous → TSized vs op → vs.step op = vs.put x v) (hl : E.card = tlosses vs op) :
    ∃ W' vs' ow' E, TMemTo W vs L op W' vs' ow' E := by
  obtain ⟨I', dl⟩ := I.put s d m
  refine ⟨_, _, _, E, h1, I', dl, s.denies, fun g sm => (hs g sm).symm, hl, fun y u hu => ?_⟩
  unfold TVals.put at hu
  split at hu
  · exact Or.inr (hv u hu)
  · exact Or.inl hu

/-- Without losses. -/
theorem tput0 {W : TWorld} {vs : TVals} {ow : Nat → Finset Nat} {L : Finset Nat} (I : TMem W vs ow L) {op : TOp} {x : Nat} {h' : Heap} {o : Option TObj}
    {v : Option TVal} {B : Finset Nat} (h1 : W.step op = .ok (W.put x o h')) (s : Step W.heap h' (ow x) B) (m : HasVal o v h' B)
    (hv : ∀ u, v = some u → u.Done) (hs : W.heap.Generous → TSized vs op → vs.step op = vs.put x v) (hl : tlosses vs op = 0) :
    ∃ W' vs' ow' E, TMemTo W vs L op W' vs' ow' E :=
  tput I (E := ∅) h1 (by simpa using s) (by simp) m hv hs (by simp [hl])

section
variable {W : TWorld} {vs : TVals} {ow : Nat → Finset Nat} {L : Finset Nat}

/-- The variable and its value are of the same class. -/
theorem TMem.cases0 (I : TMem W vs ow L) (x : Nat) :
    (W.objs x = none ∧ vs x = none ∧ ow x = ∅) ∨
    (∃ o v e, W.objs x = some (.txIn o) ∧ vs x = some (.txIn v e) ∧ InAt o (v, e) W.heap (ow x)) ∨
    (∃ o v, W.objs x = some (.txOut o) ∧ vs x = some (.txOut v) ∧ OutAt o v W.heap (ow x)) ∨
    (∃ o v e, W.objs x = some (.tx o) ∧ vs x = some (.tx v e) ∧ TxAt o v (v.txIns.zip e) W.heap (ow x) ∧ e.length = v.txIns.length) := by
  have m := I.vals x
  cases ho : W.objs x with
  | none => cases hv : vs x with
    | none => rw [ho, hv] at m; exact Or.inl ⟨rfl, rfl, m⟩
    | some v => rw [ho, hv] at m; exact m.elim
  | some o => cases hv : vs x with
    | none => rw [ho, hv] at m; cases o <;> exact m.elim
    | some v =>
      rw [ho, hv] at m
      cases o with
      | txIn o => cases v with
        | txIn v e => exact Or.inr (Or.inl ⟨o, v, e, rfl, rfl, m⟩)
        | txOut v => exact m.elim
        | tx v e => exact m.elim
      | txOut o => cases v with
        | txIn v e => exact m.elim
        | txOut v => exact Or.inr (Or.inr (Or.inl ⟨o, v, rfl, rfl, m⟩))
        | tx v e => exact m.elim
      | tx o => cases v with
        | txIn v e => exact m.elim
        | txOut v => exact m.elim
        | tx v e => exact Or.inr (Or.inr (Or.inr ⟨o, v, e, rfl, rfl, m.1, m.2⟩))

theorem TMem.cases (I : TMem W vs ow L) (x : Nat) (D : ∀ v, vs x = some v → v.Done) :
    (W.objs x = none ∧ vs x = none ∧ ow x = ∅) ∨
    (∃ o v e, W.objs x = some (.txIn o) ∧ vs x = some (.txIn v e) ∧ InAt o (v, e) W.heap (ow x) ∧ v.scriptSig.status = .done) ∨
    (∃ o v, W.objs x = some (.txOut o) ∧ vs x = some (.txOut v) ∧ OutAt o v W.heap (ow x) ∧ v.scriptPubkey.status = .done) ∨
    (∃ o v e, W.objs x = some (.tx o) ∧ vs x = some (.tx v e) ∧ TxAt o v (v.txIns.zip e) W.heap (ow x) ∧ e.length = v.txIns.length ∧ v.AllDone) := by
  rcases I.cases0 x with h | ⟨o, v, e, h1, h2, h3⟩ | ⟨o, v, h1, h2, h3⟩ | ⟨o, v, e, h1, h2, h3, h4⟩
  · exact Or.inl h
  · exact Or.inr (Or.inl ⟨o, v, e, h1, h2, h3, D _ h2⟩)
  · exact Or.inr (Or.inr (Or.inl ⟨o, v, h1, h2, h3, D _ h2⟩))
  · exact Or.inr (Or.inr (Or.inr ⟨o, v, e, h1, h2, h3, h4, D _ h2⟩))

theorem TInv.cases (I : TInv W vs ow L) (x : Nat) :
    (W.objs x = none ∧ vs x = none ∧ ow x = ∅) ∨
    (∃ o v e, W.objs x = some (.txIn o) ∧ vs x = some (.txIn v e) ∧ InAt o (v, e) W.heap (ow x) ∧ v.scriptSig.status = .done) ∨
    (∃ o v, W.objs x = some (.txOut o) ∧ vs x = some (.txOut v) ∧ OutAt o v W.heap (ow x) ∧ v.scriptPubkey.status = .done) ∨
    (∃ o v e, W.objs x = some (.tx o) ∧ vs x = some (.tx v e) ∧ TxAt o v (v.txIns.zip e) W.heap (ow x) ∧ e.length = v.txIns.length ∧ v.AllDone) :=
  I.toTMem.cases x (I.done x)

theorem InAt.fits {o : HTxIn} {v : TxIn × Bool} {h : Heap} {A : Finset Nat} (a : InAt o v h A) (hd : v.1.scriptSig.status = .done) : v.1.scriptSig.Fits := by
  obtain ⟨-, A1, A2, h1, -⟩ := a
  exact h1.2.2.1.fits hd

theorem OutAt.fits {o : HTxOut} {v : TxOut} {h : Heap} {A : Finset Nat} (a : OutAt o v h A) (hd : v.scriptPubkey.status = .done) : v.scriptPubkey.Fits :=
  a.2.2.2.1.fits hd

theorem Heap.EachAt.each {α β : Type} {P : α → β → HProp} : ∀ {os : List α} {vs : List β} {h : Heap} {A : Finset Nat}, EachAt P os vs h A → ∀ v ∈ vs, ∃ o A', P o v h A' := by
  intro os
  induction os with
  | nil => intro vs h A e v hv; cases vs with
    | nil => simp at hv
    | cons _ _ => exact e.elim
  | cons o os ih => intro vs h A e v hv; cases vs with
    | nil => simp at hv
    | cons x vs =>
      obtain ⟨A1, A2, h1, h2, -, -⟩ := e
      rcases List.mem_cons.1 hv with rfl | hv
      · exact ⟨o, A1, h1⟩
      · exact ih h2 v hv

theorem TxAt.fits {o : HTx} {v : Tx} {u : List (TxIn × Bool)} {h : Heap} {A : Finset Nat} (a : TxAt o v u h A) (hd : v.AllDone) : v.AllFits := by
  obtain ⟨-, eu, A1, A2, h1, h2, -, -⟩ := a
  obtain ⟨A1', e1, -⟩ := h1.each
  obtain ⟨A2', e2, -⟩ := h2.each
  refine ⟨fun i hi => ?_, fun t ht => ?_⟩
  · rw [eu] at hi
    obtain ⟨j, hj, rfl⟩ := List.mem_map.1 hi
    obtain ⟨q, A', hq⟩ := e1.each j hj
    exact hq.fits (hd.1 _ (by rw [eu]; exact List.mem_map_of_mem hj))
  · obtain ⟨q, A', hq⟩ := e2.each t ht
    exact hq.fits (hd.2 t ht)


theorem zip_pairs (u : List (TxIn × Bool)) : (u.map Prod.fst).zip (u.map Prod.snd) = u := by
  induction u with
  | nil => rfl
  | cons a u ih => simp [ih]

/-- The value of a transaction with the inputs `u`. -/
theorem TxAt.hasVal {o : HTx} {v : Tx} {u : List (TxIn × Bool)} {h : Heap} {A : Finset Nat} (a : TxAt o v u h A) :
    HasVal (some (.tx o)) (some (.tx v (u.map Prod.snd))) h A := by
  have eu := a.2.1
  refine ⟨?_, by rw [eu]; simp⟩
  rw [eu, zip_pairs]
  exact a

theorem fresh_eq {v : Tx} {u : List (TxIn × Bool)} (e : u = v.txIns.map fun i => i.since false) : some (TVal.tx v (u.map Prod.snd)) = TVals.fresh v := by
  rw [e, List.map_map]
  unfold TVals.fresh
  rfl

theorem not_spoilt {v : Tx} {e : List Bool} (h : ¬ (TVal.tx v e).Spoilt) : ∀ i ∈ v.txIns.zip e, ¬ HTxIn.stale i := fun i hi hs => h ⟨i, hi, hs⟩

theorem copy_since {v : Tx} {u : List (TxIn × Bool)} (eu : v.txIns = u.map Prod.fst) :
    (u.map fun i => (({} : TxIn).assign i.1).since false) = v.copy.txIns.map fun i => i.since false := by
  unfold Tx.copy
  simp only
  rw [eu, List.map_map, List.map_map]
  rfl

/-- A change of the members of an input. -/
theorem HTxIn.act_at {h : Heap} (w : h.Wf) {o : HTxIn} {v : TxIn × Bool} {A : Finset Nat} (a : InAt o v h A) (hd : v.1.scriptSig.status = .done) (op : InOp) :
    ∃ o' v' h' B, o.act h op = .ok (o', h') ∧ InAt o' v' h' B ∧ v'.1.scriptSig.status = .done ∧ Step h h' A B ∧
      (h.Generous → v' = (actOn v.1 op).since v.2) := by
  obtain ⟨eo, A1, A2, h1, h2, dd, rfl⟩ := a
  have l1 := (ScriptAt.stable _ _).live h1
  have l2 := (WitAt.stable _ _).live h2
  cases op with
  | push data =>
    obtain ⟨w', v', r, h', B, e, at', s, g⟩ := HWitness.push_at w h2 data
    have k1 := (ScriptAt.stable _ _).keep w s l2 dd h1
    have f := s.frame w A1 (fun q hq hc => Finset.disjoint_left.1 dd hq hc) l1
    rw [Finset.union_comm A2, Finset.union_comm B] at f
    refine ⟨{ o with witness := w' }, ({ v.1 with witness := v'.1 }, v'.2), h', A1 ∪ B, ?_, ⟨by rw [eo], A1, B, k1, at', s.apart w l1 dd, rfl⟩, hd, f, fun gg => ?_⟩
    · rw [show o.act h (.push data) = (do let (w, _, h) ← o.witness.push data h; return ({ o with witness := w }, h)) from rfl]
      rw [e, C.bind_ok]
      rfl
    · obtain ⟨u, e1, e2⟩ := g gg
      simp only at e1
      simp only [actOn, e1, e2]
      rfl
  | clearWitness =>
    obtain ⟨w', h', e, at', s⟩ := HWitness.clear_at w h2
    have k1 := (ScriptAt.stable _ _).keep w s l2 dd h1
    have f := s.frame w A1 (fun q hq hc => Finset.disjoint_left.1 dd hq hc) l1
    rw [Finset.union_comm A2, Finset.union_comm ∅] at f
    refine ⟨{ o with witness := w' }, (actOn v.1 .clearWitness).since v.2, h', A1 ∪ ∅, ?_, ⟨by rw [eo]; rfl, A1, ∅, k1, at', by simp, rfl⟩, hd, f, fun gg => rfl⟩
    rw [show o.act h .clearWitness = (do let (w, h) ← o.witness.clear h; return ({ o with witness := w }, h)) from rfl, e, C.bind_ok]
    rfl
  | setScript data =>
    obtain ⟨arg, p1, o', v', p2, p3, B, e1, e2, e3, at', st, s, g⟩ := HScript.temp_at w h1 hd data
    have k2 := (WitAt.stable _ _).keep w s l1 dd.symm h2
    have f := s.frame w A2 (fun q hq hc => Finset.disjoint_left.1 dd hc hq) l2
    have wit : v.2 = (v.2 || decide (v.1.witness.arr ≠ [])) := by
      by_cases hb : v.1.witness.arr = []
      · simp [hb]
      · rw [h2.2.2.1 hb]; simp
    refine ⟨{ o with scriptSig := o' }, ({ v.1 with scriptSig := v' }, v.2), p3, B ∪ A2, ?_, ⟨by rw [eo], B, A2, at', k2, (s.apart w l2 dd.symm).symm, rfl⟩, st, f, fun gg => ?_⟩
    · rw [show o.act h (.setScript data) = (do
        let (arg, h) ← HScript.ofBuffer data h
        let (sc, h) ← o.scriptSig.assign arg h
        let h ← arg.destroy h
        return ({ o with scriptSig := sc }, h)) from rfl]
      rw [e1, C.bind_ok]
      dsimp only
      rw [e2, C.bind_ok]
      dsimp only
      rw [e3, C.bind_ok]
      rfl
    · rw [g gg]
      exact Prod.ext rfl wit

theorem one_done {v : TVal} (h : v.Done) : ∀ u, some v = some u → u.Done := fun u e => by injection e with e; rw [← e]; exact h

theorem zip_get {v : List TxIn} {e : List Bool} {i : Nat} {p : TxIn × Bool} (h : (v.zip e)[i]? = some p) : v[i]? = some p.1 ∧ e[i]? = some p.2 := by
  rw [List.getElem?_zip_eq_some] at h
  exact h

/-- Every statement whose operands are complete. -/
theorem tstep_mem (I : TMem W vs ow L) (op : TOp) (ok : TAllowed vs op) (rd : TReady vs op) : ∃ W' vs' ow' E, TMemTo W vs L op W' vs' ow' E := by
  cases op with
  | newIn x prevId idx data seq =>
    rcases I.cases0 x with ⟨h1, h2, h3⟩ | ⟨o, v, e, h1, h2, -⟩ | ⟨o, v, h1, h2, -⟩ | ⟨o, v, e, h1, h2, -⟩
    · obtain ⟨o, v, h', B, e, a, st, s, g⟩ := HTxIn.make_at I.wf prevId idx data seq
      refine tput0 I (x := x) (o := some (.txIn o)) (v := some (.txIn v false)) (by simp only [TWorld.step, h1]; rw [e, C.bind_ok]; rfl) (by rw [h3]; exact s) a
        (one_done st) (fun gg _ => ?_) rfl
      simp only [TVals.step, h2]
      rw [g gg]
      rfl
    all_goals exact tnoop I (by simp only [TWorld.step, h1]) (by simp only [TVals.step, h2]) rfl
  | newOut x amount data =>
    rcases I.cases0 x with ⟨h1, h2, h3⟩ | ⟨o, v, e, h1, h2, -⟩ | ⟨o, v, h1, h2, -⟩ | ⟨o, v, e, h1, h2, -⟩
    · obtain ⟨o, v, h', B, e, a, st, s, g⟩ := HTxOut.make_at I.wf amount data
      refine tput0 I (x := x) (o := some (.txOut o)) (v := some (.txOut v)) (by simp only [TWorld.step, h1]; rw [e, C.bind_ok]; rfl) (by rw [h3]; exact s) a
        (one_done st) (fun gg _ => ?_) rfl
      simp only [TVals.step, h2]
      rw [g gg]
      rfl
    all_goals exact tnoop I (by simp only [TWorld.step, h1]) (by simp only [TVals.step, h2]) rfl
  | newTx x =>
    rcases I.cases0 x with ⟨h1, h2, h3⟩ | ⟨o, v, e, h1, h2, -⟩ | ⟨o, v, h1, h2, -⟩ | ⟨o, v, e, h1, h2, -⟩
    · refine tput0 I (x := x) (B := ∅) (o := some (.tx {})) (v := TVals.fresh {}) (h' := W.heap) (by simp only [TWorld.step, h1]) (by rw [h3]; exact Step.refl I.wf (by simp))
        ⟨TxAt.null _, rfl⟩ (fun u hu => ?_) (fun _ _ => by simp only [TVals.step, h2]) rfl
      injection hu with hu
      subst hu
      exact ⟨fun _ h => by simp at h, fun _ h => by simp at h⟩
    all_goals exact tnoop I (by simp only [TWorld.step, h1]) (by simp only [TVals.step, h2]) rfl
  | copy x y =>
    rcases I.cases0 x with ⟨h1, h2, h3⟩ | ⟨o, v, e, h1, h2, -⟩ | ⟨o, v, h1, h2, -⟩ | ⟨o, v, e, h1, h2, -⟩
    · rcases I.cases y rd with ⟨k1, k2, k3⟩ | ⟨o, v, e, k1, k2, k3, k4⟩ | ⟨o, v, k1, k2, k3, k4⟩ | ⟨o, v, e, k1, k2, k3, k4, k5⟩
      · exact tnoop I (by simp only [TWorld.step, h1, k1]) (by simp only [TVals.step, h2, k2]) (by simp only [tlosses, h2, k2])
      · obtain ⟨o', v', h', B, e1, a, ⟨st, -⟩, s, g⟩ := HTxIn.copy_at I.wf k3 (k3.fits k4)
        refine tput0 I (x := x) (o := some (.txIn o')) (v := some (.txIn v'.1 v'.2)) (by simp only [TWorld.step, h1, k1]; rw [e1, C.bind_ok]; rfl) (by rw [h3]; exact s) a
          (one_done st) (fun gg sm => ?_) (by simp only [tlosses, h2, k2])
        simp only [TVals.step, h2, k2]
        rw [g gg (sm y _ k2 (rd _ k2))]
        rfl
      · obtain ⟨o', v', h', B, e1, a, st, s, g⟩ := HTxOut.copy_at I.wf k3 (k3.fits k4)
        refine tput0 I (x := x) (o := some (.txOut o')) (v := some (.txOut v')) (by simp only [TWorld.step, h1, k1]; rw [e1, C.bind_ok]; rfl) (by rw [h3]; exact s) a
          (one_done st) (fun gg sm => ?_) (by simp only [tlosses, h2, k2])
        simp only [TVals.step, h2, k2]
        rw [g gg (sm y _ k2 (rd _ k2))]
      · obtain ⟨o', v', u', h', B, E, e1, a, ⟨st, -⟩, s, d, c, g⟩ := HTx.copy_at I.wf k3 (k3.fits k5)
        refine tput I (x := x) (o := some (.tx o')) (by simp only [TWorld.step, h1, k1]; rw [e1, C.bind_ok]; rfl) (by rw [h3]; exact s) d a.hasVal
          (one_done st) (fun gg sm => ?_) (by simp only [tlosses, h2, k2]; exact c)
        obtain ⟨g1, g2⟩ := g gg (sm y _ k2 (rd _ k2))
        simp only [TVals.step, h2, k2]
        rw [copy_since k3.2.1, ← g1] at g2
        rw [fresh_eq g2, g1]
    all_goals exact tnoop I (by simp only [TWorld.step, h1]) (by simp only [TVals.step, h2]) (by simp only [tlosses, h2])
  | assign x y =>
    by_cases hxy : x = y
    · exact tnoop I (by simp only [TWorld.step, if_pos hxy]) (by simp only [TVals.step, if_pos hxy]) (by simp only [tlosses, if_pos hxy])
    rcases I.cases0 x with ⟨h1, h2, h3⟩ | ⟨o, v, e, h1, h2, h3⟩ | ⟨o, v, h1, h2, h3⟩ | ⟨o, v, e, h1, h2, h3, h4⟩
    · exact tnoop I (by simp only [TWorld.step, if_neg hxy, h1]) (by simp only [TVals.step, if_neg hxy, h2]) (by simp only [tlosses, if_neg hxy, h2])
    · rcases I.cases y rd.1 with ⟨k1, k2, k3⟩ | ⟨oo, vo, eo, k1, k2, k3, k4⟩ | ⟨oo, vo, k1, k2, k3, k4⟩ | ⟨oo, vo, eo, k1, k2, k3, k4, k5⟩
      · exact tnoop I (by simp only [TWorld.step, if_neg hxy, h1, k1]) (by simp only [TVals.step, if_neg hxy, h2, k2]) (by simp only [tlosses, if_neg hxy, h2])
      · obtain ⟨o', v', h', B, e1, a, ⟨st, -⟩, s, g⟩ := HTxIn.assign_at I.wf h3 k3 (rd.2.1 v e h2) (k3.fits k4) (I.sep y x (Ne.symm hxy))
        refine tput0 I (x := x) (o := some (.txIn o')) (v := some (.txIn v'.1 v'.2)) (by simp only [TWorld.step, if_neg hxy, h1, k1]; rw [e1, C.bind_ok]; rfl) s a
          (one_done st) (fun gg sm => ?_) (by simp only [tlosses, if_neg hxy, h2])
        simp only [TVals.step, if_neg hxy, h2, k2]
        rw [g gg (sm y _ k2 (rd.1 _ k2))]
        rfl
      all_goals exact tnoop I (by simp only [TWorld.step, if_neg hxy, h1, k1]) (by simp only [TVals.step, if_neg hxy, h2, k2]) (by simp only [tlosses, if_neg hxy, h2])
    · rcases I.cases y rd.1 with ⟨k1, k2, k3⟩ | ⟨oo, vo, eo, k1, k2, k3, k4⟩ | ⟨oo, vo, k1, k2, k3, k4⟩ | ⟨oo, vo, eo, k1, k2, k3, k4, k5⟩
      · exact tnoop I (by simp only [TWorld.step, if_neg hxy, h1, k1]) (by simp only [TVals.step, if_neg hxy, h2, k2]) (by simp only [tlosses, if_neg hxy, h2])
      · exact tnoop I (by simp only [TWorld.step, if_neg hxy, h1, k1]) (by simp only [TVals.step, if_neg hxy, h2, k2]) (by simp only [tlosses, if_neg hxy, h2])
      · obtain ⟨o', v', h', B, e1, a, st, s, g⟩ := HTxOut.assign_at I.wf h3 k3 (rd.2.2 v h2) (k3.fits k4) (I.sep y x (Ne.symm hxy))
        refine tput0 I (x := x) (o := some (.txOut o')) (v := some (.txOut v')) (by simp only [TWorld.step, if_neg hxy, h1, k1]; rw [e1, C.bind_ok]; rfl) s a
          (one_done st) (fun gg sm => ?_) (by simp only [tlosses, if_neg hxy, h2])
        simp only [TVals.step, if_neg hxy, h2, k2]
        rw [g gg (sm y _ k2 (rd.1 _ k2))]
      · exact tnoop I (by simp only [TWorld.step, if_neg hxy, h1, k1]) (by simp only [TVals.step, if_neg hxy, h2, k2]) (by simp only [tlosses, if_neg hxy, h2])
    · rcases I.cases y rd.1 with ⟨k1, k2, k3⟩ | ⟨oo, vo, eo, k1, k2, k3, k4⟩ | ⟨oo, vo, k1, k2, k3, k4⟩ | ⟨oo, vo, eo, k1, k2, k3, k4, k5⟩
      · exact tnoop I (by simp only [TWorld.step, if_neg hxy, h1, k1]) (by simp only [TVals.step, if_neg hxy, h2, k2]) (by simp only [tlosses, if_neg hxy, h2, k2])
      · exact tnoop I (by simp only [TWorld.step, if_neg hxy, h1, k1]) (by simp only [TVals.step, if_neg hxy, h2, k2]) (by simp only [tlosses, if_neg hxy, h2, k2])
      · exact tnoop I (by simp only [TWorld.step, if_neg hxy, h1, k1]) (by simp only [TVals.step, if_neg hxy, h2, k2]) (by simp only [tlosses, if_neg hxy, h2, k2])
      · have ns := not_spoilt (ok hxy v e vo eo h2 k2)
        obtain ⟨o', v', u', h', B, E, e1, a, ⟨st, -⟩, s, d, c, g⟩ := HTx.assign_at I.wf h3 k3 ns (k3.fits k5) (I.sep y x (Ne.symm hxy))
        refine tput I (x := x) (o := some (.tx o')) (by simp only [TWorld.step, if_neg hxy, h1, k1]; rw [e1, C.bind_ok]; rfl) s d a.hasVal
          (one_done st) (fun gg sm => ?_) (by simp only [tlosses, if_neg hxy, h2, k2]; exact c)
        obtain ⟨g1, g2⟩ := g gg (sm y _ k2 (rd.1 _ k2))
        simp only [TVals.step, if_neg hxy, h2, k2]
        rw [copy_since k3.2.1, ← g1] at g2
        rw [fresh_eq g2, g1]
  | addInput x y =>
    rcases I.cases x rd.1 with ⟨h1, h2, h3⟩ | ⟨o, v, e, h1, h2, h3, h4⟩ | ⟨o, v, h1, h2, h3, h4⟩ | ⟨o, v, e, h1, h2, h3, h4, h5⟩
    · exact tnoop I (by simp only [TWorld.step, h1]) (by simp only [TVals.step, h2]) rfl
    · exact tnoop I (by simp only [TWorld.step, h1]) (by simp only [TVals.step, h2]) rfl
    · exact tnoop I (by simp only [TWorld.step, h1]) (by simp only [TVals.step, h2]) rfl
    · rcases I.cases y rd.2 with ⟨k1, k2, k3⟩ | ⟨oo, vo, eo, k1, k2, k3, k4⟩ | ⟨oo, vo, k1, k2, k3, k4⟩ | ⟨oo, vo, eo, k1, k2, k3, k4, k5⟩
      · exact tnoop I (by simp only [TWorld.step, h1, k1]) (by simp only [TVals.step, h2, k2]) rfl
      · have ns := not_spoilt (ok v e vo eo h2 k2)
        obtain ⟨o', v', u', h', B, e1, a, ⟨st, ot, -⟩, s, g⟩ := HTx.addInput_at I.wf h3 k3 ns (h3.fits h5).1 (k3.fits k4)
        refine tput0 I (x := x) (o := some (.tx o')) (by simp only [TWorld.step, h1, k1]; rw [e1, C.bind_ok]; rfl) s a.hasVal
          (one_done ⟨?_, ?_⟩) (fun gg sm => ?_) rfl
        · rw [a.2.1]
          exact fst_mem (Q := fun i => i.scriptSig.status = .done) fun i hi => (st i hi).1
        · rw [ot]; exact h5.2
        · obtain ⟨g1, g2⟩ := g gg (sm x _ h2 (rd.1 _ h2)) (sm y _ k2 (rd.2 _ k2))
          simp only [TVals.step, h2, k2]
          rw [← g1] at g2
          rw [fresh_eq g2, g1]
      · exact tnoop I (by simp only [TWorld.step, h1, k1]) (by simp only [TVals.step, h2, k2]) rfl
      · exact tnoop I (by simp only [TWorld.step, h1, k1]) (by simp only [TVals.step, h2, k2]) rfl
  | addOutput x y =>
    rcases I.cases x rd.1 with ⟨h1, h2, h3⟩ | ⟨o, v, e, h1, h2, h3, h4⟩ | ⟨o, v, h1, h2, h3, h4⟩ | ⟨o, v, e, h1, h2, h3, h4, h5⟩
    · exact tnoop I (by simp only [TWorld.step, h1]) (by simp only [TVals.step, h2]) rfl
    · exact tnoop I (by simp only [TWorld.step, h1]) (by simp only [TVals.step, h2]) rfl
    · exact tnoop I (by simp only [TWorld.step, h1]) (by simp only [TVals.step, h2]) rfl
    · rcases I.cases y rd.2 with ⟨k1, k2, k3⟩ | ⟨oo, vo, eo, k1, k2, k3, k4⟩ | ⟨oo, vo, k1, k2, k3, k4⟩ | ⟨oo, vo, eo, k1, k2, k3, k4, k5⟩
      · exact tnoop I (by simp only [TWorld.step, h1, k1]) (by simp only [TVals.step, h2, k2]) rfl
      · exact tnoop I (by simp only [TWorld.step, h1, k1]) (by simp only [TVals.step, h2, k2]) rfl
      · obtain ⟨o', v', h', B, e1, a, ⟨st, -⟩, s, g⟩ := HTx.addOutput_at I.wf h3 k3 (h3.fits h5).2 (k3.fits k4)
        have hi : v'.txIns = v.txIns := a.2.1.trans h3.2.1.symm
        refine tput0 I (x := x) (o := some (.tx o')) (v := some (.tx v' e)) (by simp only [TWorld.step, h1, k1]; rw [e1, C.bind_ok]; rfl) s
          ⟨by rw [hi]; exact a, by rw [hi]; exact h4⟩ (one_done ⟨?_, st⟩) (fun gg sm => ?_) rfl
        · rw [hi]; exact h5.1
        · simp only [TVals.step, h2, k2]
          rw [g gg (sm x _ h2 (rd.1 _ h2)) (sm y _ k2 (rd.2 _ k2))]
      · exact tnoop I (by simp only [TWorld.step, h1, k1]) (by simp only [TVals.step, h2, k2]) rfl
  | onIn x op =>
    rcases I.cases x rd with ⟨h1, h2, h3⟩ | ⟨o, v, e, h1, h2, h3, h4⟩ | ⟨o, v, h1, h2, h3, h4⟩ | ⟨o, v, e, h1, h2, h3, h4, h5⟩
    · exact tnoop I (by simp only [TWorld.step, h1]) (by simp only [TVals.step, h2]) rfl
    · obtain ⟨o', v', h', B, e1, a, st, s, g⟩ := HTxIn.act_at I.wf h3 h4 op
      refine tput0 I (x := x) (o := some (.txIn o')) (v := some (.txIn v'.1 v'.2)) (by simp only [TWorld.step, h1]; rw [e1, C.bind_ok]; rfl) s a
        (one_done st) (fun gg sm => ?_) rfl
      simp only [TVals.step, h2]
      rw [g gg]
      rfl
    · exact tnoop I (by simp only [TWorld.step, h1]) (by simp only [TVals.step, h2]) rfl
    · exact tnoop I (by simp only [TWorld.step, h1]) (by simp only [TVals.step, h2]) rfl
  | onInput x i op =>
    rcases I.cases x rd with ⟨h1, h2, h3⟩ | ⟨o, v, e, h1, h2, h3, h4⟩ | ⟨o, v, h1, h2, h3, h4⟩ | ⟨o, v, e, h1, h2, h3, h4, h5⟩
    · exact tnoop I (by simp only [TWorld.step, h1]) (by simp only [TVals.step, h2]) rfl
    · exact tnoop I (by simp only [TWorld.step, h1]) (by simp only [TVals.step, h2]) rfl
    · exact tnoop I (by simp only [TWorld.step, h1]) (by simp only [TVals.step, h2]) rfl
    · have hlen : o.txIns.length = v.txIns.length := by
        obtain ⟨-, -, A1, A2, q1, -⟩ := h3
        rw [q1.length, List.length_zip, h4, Nat.min_self]
      cases hi : o.txIns[i]? with
      | none =>
        have hv : v.txIns[i]? = none := by
          rw [List.getElem?_eq_none_iff] at hi ⊢
          omega
        exact tnoop I (by simp only [TWorld.step, h1, hi]) (by simp only [TVals.step, h2, hv]) rfl
      | some t =>
        obtain ⟨acc, vt, A1, hvt, at1, sub, upd⟩ := HTx.update_at I.wf h3 hi
        obtain ⟨hv, he⟩ := zip_get hvt
        have hd : vt.1.scriptSig.status = .done := h5.1 _ (List.mem_of_getElem? hv)
        obtain ⟨o', v', h', B, e1, a, st, s, g⟩ := HTxIn.act_at I.wf at1 hd op
        obtain ⟨B', a', s'⟩ := upd s a
        have a2 := a'.hasVal
        refine tput0 I (x := x) (by simp only [TWorld.step, h1, hi]; rw [acc, C.bind_ok, e1, C.bind_ok]; rfl) s' a2 (one_done ⟨?_, h5.2⟩) (fun gg sm => ?_) rfl
        · intro j hj
          rcases List.mem_or_eq_of_mem_set hj with hj | hj
          · exact h5.1 j hj
          · rw [hj]; exact st
        · simp only [TVals.step, h2, hv, he]
          rw [g gg, List.map_set, List.map_snd_zip (by omega)]
          rfl
  | destroy x =>
    rcases I.cases0 x with ⟨h1, h2, h3⟩ | ⟨o, v, e, h1, h2, h3⟩ | ⟨o, v, h1, h2, h3⟩ | ⟨o, v, e, h1, h2, h3, h4⟩
    · refine tnoop I (by simp only [TWorld.step, h1]) ?_ rfl
      funext y
      simp only [TVals.step, TVals.put]
      split
      · rename_i hy; rw [hy, h2]
      · rfl
    · obtain ⟨h', e1, s⟩ := HTxIn.destroy_at I.wf h3 (ok _ h2)
      exact tput0 I (x := x) (o := none) (v := none) (B := ∅) (by simp only [TWorld.step, h1]; rw [e1, C.bind_ok]; rfl) s rfl (fun u hu => by cases hu)
        (fun _ _ => rfl) rfl
    · obtain ⟨h', e1, s⟩ := HTxOut.destroy_at I.wf h3
      exact tput0 I (x := x) (o := none) (v := none) (B := ∅) (by simp only [TWorld.step, h1]; rw [e1, C.bind_ok]; rfl) s rfl (fun u hu => by cases hu)
        (fun _ _ => rfl) rfl
    · obtain ⟨h', e1, s⟩ := HTx.destroy_at I.wf h3 (not_spoilt (ok _ h2))
      exact tput0 I (x := x) (o := none) (v := none) (B := ∅) (by simp only [TWorld.step, h1]; rw [e1, C.bind_ok]; rfl) s rfl (fun u hu => by cases hu)
        (fun _ _ => rfl) rfl

/-- What is in memory fits into memory. -/
theorem _root_.UB.Heap.Generous.bounded {h : Heap} (g : h.Generous) : h.Bounded := fun n size hs => (g n size (by omega)).2 hs

theorem _root_.UB.ScriptAt.small {h : Heap} (w : h.Wf) (g : h.Generous) {o : HScript} {v : Script} {A : Finset Nat} (a : ScriptAt o v h A) (hd : v.status = .done) :
    v.scriptLen < 2 ^ 63 := by
  obtain ⟨-, a, hs, -, -⟩ := a
  have hf := (hs.fits hd).1
  by_cases h0 : v.arr = []
  · rw [h0] at hf
    simp only [List.length_nil] at hf
    omega
  · exact Nat.lt_of_le_of_lt hf (w.small g.bounded _ _ (a.block h0))

theorem _root_.UB.WitAt.small {h : Heap} (w : h.Wf) (g : h.Generous) {o : HWitness} {v : Witness × Bool} {A : Finset Nat} (a : WitAt o v h A) : v.1.arr.length < 2 ^ 63 := by
  by_cases h0 : v.1.arr = []
  · rw [h0]
    simp
  · exact w.small g.bounded _ _ (a.2.1.block h0)

theorem _root_.UB.InAt.small {h : Heap} (w : h.Wf) (g : h.Generous) {o : HTxIn} {v : TxIn × Bool} {A : Finset Nat} (a : InAt o v h A) (hd : v.1.scriptSig.status = .done) :
    v.1.Small := by
  obtain ⟨-, A1, A2, h1, h2, -⟩ := a
  exact ⟨h1.small w g hd, h2.small w g⟩

theorem _root_.UB.OutAt.small {h : Heap} (w : h.Wf) (g : h.Generous) {o : HTxOut} {v : TxOut} {A : Finset Nat} (a : OutAt o v h A) (hd : v.scriptPubkey.status = .done) :
    v.Small := a.2.small w g hd

theorem _root_.UB.TxAt.small {h : Heap} (w : h.Wf) (g : h.Generous) {o : HTx} {v : Tx} {u : List (TxIn × Bool)} {A : Finset Nat} (a : TxAt o v u h A) (hd : v.AllDone) :
    v.Small := by
  obtain ⟨-, eu, A1, A2, h1, h2, -⟩ := a
  obtain ⟨A1', e1, -⟩ := h1.each
  obtain ⟨A2', e2, -⟩ := h2.each
  refine ⟨?_, fun o ho => ?_⟩
  · rw [eu]
    refine fst_mem fun i hi => ?_
    obtain ⟨o, A', q⟩ := e1.each i hi
    exact q.small w g (hd.1 i.1 (by rw [eu]; exact List.mem_map_of_mem hi))
  · obtain ⟨o', A', q⟩ := e2.each o ho
    exact q.small w g (hd.2 o ho)

theorem _root_.UB.TMem.doneSmall (I : TMem W vs ow L) (g : W.heap.Generous) : vs.DoneSmall := by
  intro x v hv hd
  rcases I.cases0 x with ⟨-, h2, -⟩ | ⟨o, u, e, -, h2, h3⟩ | ⟨o, u, -, h2, h3⟩ | ⟨o, u, e, -, h2, h3, -⟩ <;> rw [hv] at h2
  · cases h2
  · injection h2 with h2
    subst h2
    exact h3.small I.wf g hd
  · injection h2 with h2
    subst h2
    exact h3.small I.wf g hd
  · injection h2 with h2
    subst h2
    exact h3.small I.wf g hd

theorem TReady.of_done {op : TOp} (D : ∀ x v, vs x = some v → v.Done) : TReady vs op := by
  cases op with
  | copy x y => exact D y
  | assign x y => exact ⟨D y, fun v e h => D x _ h, fun v h => D x _ h⟩
  | addInput x y => exact ⟨D x, D y⟩
  | addOutput x y => exact ⟨D x, D y⟩
  | onIn x op => exact D x
  | onInput x i op => exact D x
  | _ => trivial

/-- Every statement where all scripts are complete. -/
theorem tstep_ok (I : TInv W vs ow L) (op : TOp) (ok : TAllowed vs op) : ∃ W' vs' ow' E, TStepsTo W vs L op W' vs' ow' E := by
  obtain ⟨W', vs', ow', E, s⟩ := tstep_mem I.toTMem op ok (TReady.of_done I.done)
  refine ⟨W', vs', ow', E, s.run, ⟨s.mem, fun y v h => ?_⟩, s.dis, s.denies, fun g => s.val g (TSized.of (I.doneSmall g)), s.loss⟩
  rcases s.fin y v h with h | h
  · exact I.done y v h
  · exact h

end
end UB
