import Verif.Lemmas.HeapTxProgram

/-! # C84: inputs, outputs and transactions as objects on a heap

Programs that construct, copy, assign, extend and destroy inputs, outputs and transactions, and change the scripts and witnesses in
them, with any number of variables and statements, on a heap where using memory that is not owned is an error. -/

namespace UB
open Heap Spec

/-- The variable a statement constructs, changes or destroys. -/
def TOp.target : TOp → Nat
  | .newIn x _ _ _ _ | .newOut x _ _ | .newTx x | .copy x _ | .assign x _ | .addInput x _ | .addOutput x _ | .onIn x _ | .onInput x _ _ | .destroy x => x

theorem trun_ok : ∀ (ops : List TOp) {W : TWorld} {vs : TVals} {ow : Nat → Finset Nat} {L : Finset Nat} (_ : TInv W vs ow L) (_ : W.heap.Generous)
    (_ : TAllAllowed ops vs),
    ∃ W' ow' L', W.run ops = .ok W' ∧ TInv W' (vs.run ops) ow' L' ∧ W'.heap.denies = W.heap.denies ∧ L'.card = L.card + tallLosses ops vs := by
  intro ops
  induction ops with
  | nil => intro W vs ow L I _ _; exact ⟨W, ow, L, rfl, I, rfl, rfl⟩
  | cons op ops ih =>
    intro W vs ow L I g ha
    obtain ⟨ok, ha'⟩ := ha
    obtain ⟨W1, vs1, ow1, E, s⟩ := tstep_ok I op ok
    have e1 := s.val g
    subst e1
    have g1 : W1.heap.Generous := by
      unfold Heap.Generous
      rw [s.denies]
      exact g
    obtain ⟨W', ow', L', hr, I', hd, hn⟩ := ih s.inv g1 ha'
    refine ⟨W', ow', L', ?_, I', hd.trans s.denies, ?_⟩
    · rw [TWorld.run, s.run, C.bind_ok]
      exact hr
    · rw [hn, Finset.card_union_of_disjoint s.dis, s.loss, tallLosses, Nat.add_assoc]

theorem TWorld.run_append : ∀ (ops1 ops2 : List TOp) (W : TWorld), W.run (ops1 ++ ops2) = (do let W ← W.run ops1; W.run ops2) := by
  intro ops1
  induction ops1 with
  | nil => intro ops2 W; rfl
  | cons op ops1 ih =>
    intro ops2 W
    simp only [List.cons_append, TWorld.run]
    cases hs : W.step op with
    | ub => rfl
    | ok W1 => rw [C.bind_ok, C.bind_ok, ih]

theorem TVals.run_append : ∀ (ops1 ops2 : List TOp) (vs : TVals), TVals.run (ops1 ++ ops2) vs = TVals.run ops2 (TVals.run ops1 vs) := by
  intro ops1
  induction ops1 with
  | nil => intro ops2 vs; rfl
  | cons op ops1 ih => intro ops2 vs; exact ih ops2 _

theorem tallAllowed_append : ∀ {ops1 ops2 : List TOp} {vs : TVals}, TAllAllowed (ops1 ++ ops2) vs → TAllAllowed ops1 vs ∧ TAllAllowed ops2 (TVals.run ops1 vs) := by
  intro ops1
  induction ops1 with
  | nil => exact fun h => ⟨trivial, h⟩
  | cons op ops1 ih =>
    intro ops2 vs h
    obtain ⟨h2, h3⟩ := h
    obtain ⟨h4, h5⟩ := ih h3
    exact ⟨⟨h2, h4⟩, h5⟩

theorem TVals.put_ne {vs : TVals} {x y : Nat} {v : Option TVal} (h : y ≠ x) : vs.put x v y = vs y := if_neg h

theorem TVals.put_eq {vs : TVals} {x : Nat} {v : Option TVal} : vs.put x v x = v := if_pos rfl

theorem TVals.step_cases (vs : TVals) (op : TOp) : vs.step op = vs ∨ ∃ v, vs.step op = vs.put op.target v := by
  cases op <;> simp only [TVals.step, TOp.target]
  all_goals
    repeat' split
    all_goals first | exact Or.inl rfl | exact Or.inr ⟨_, rfl⟩

theorem TVals.step_ne {vs : TVals} {op : TOp} {y : Nat} (h : y ≠ op.target) : vs.step op y = vs y := by
  rcases TVals.step_cases vs op with e | ⟨v, e⟩
  · rw [e]
  · rw [e, TVals.put_ne h]

theorem TVals.run_ne : ∀ (ops : List TOp) {vs : TVals} {y : Nat}, (∀ op ∈ ops, op.target ≠ y) → TVals.run ops vs y = vs y := by
  intro ops
  induction ops with
  | nil => intro vs y _; rfl
  | cons op ops ih =>
    intro vs y h
    rw [TVals.run, ih fun o ho => h o (List.mem_cons_of_mem _ ho)]
    exact TVals.step_ne (Ne.symm (h op List.mem_cons_self))

/-! ### What can be read -/

theorem ScriptAt.read {o : HScript} {v : Script} {h : Heap} {A : Finset Nat} (a : ScriptAt o v h A) (hd : v.status = .done) :
    h.read o.ptr 0 o.scriptLen = .ok v.bytes := by
  obtain ⟨eo, a, hs, -, -⟩ := a
  have hf := hs.fits hd
  rw [show o.scriptLen = v.scriptLen by rw [eo]; rfl]
  by_cases h0 : v.scriptLen = 0
  · simp [Heap.read, h0, Script.bytes]
  · have := hf.1
    exact read_all (a.block (by rintro e; simp [e] at this; omega)) hf.1

theorem WitAt.read {o : HWitness} {v : Witness × Bool} {h : Heap} {A : Finset Nat} (a : WitAt o v h A) :
    h.read o.ptr 0 o.witnessLen = .ok v.1.arr := by
  obtain ⟨eo, a, -, -⟩ := a
  rw [show o.witnessLen = v.1.arr.length by rw [eo]; rfl]
  by_cases h0 : v.1.arr = []
  · simp [Heap.read, h0]
  · rw [read_all (a.block h0) (Nat.le_refl _), List.take_length]

theorem InAt.view {o : HTxIn} {v : TxIn × Bool} {h : Heap} {A : Finset Nat} (a : InAt o v h A) (hd : v.1.scriptSig.status = .done) :
    o.view h = .ok (viewIn v.1) := by
  obtain ⟨eo, A1, A2, h1, h2, -⟩ := a
  unfold HTxIn.view
  rw [h1.read hd, C.bind_ok, h2.read, C.bind_ok, show o.witness.numElements = v.1.witness.numElements by rw [h2.1]; rfl, eo]
  rfl

theorem OutAt.view {o : HTxOut} {v : TxOut} {h : Heap} {A : Finset Nat} (a : OutAt o v h A) (hd : v.scriptPubkey.status = .done) :
    o.view h = .ok (viewOut v) := by
  unfold HTxOut.view
  rw [a.2.read hd, C.bind_ok, a.1]
  rfl

theorem viewAll_ok {α β γ : Type} {P : α → β → HProp} {f : α → Heap → C γ} {g : β → γ} {Q : β → Prop}
    (hf : ∀ {h : Heap} {o : α} {v : β} {A : Finset Nat}, P o v h A → Q v → f o h = .ok (g v)) :
    ∀ {os : List α} {vs : List β} {h : Heap} {A : Finset Nat}, EachAt P os vs h A → (∀ v ∈ vs, Q v) → viewAll (f · h) os = .ok (vs.map g) := by
  intro os
  induction os with
  | nil => intro vs h A e hq; cases vs with
    | nil => rfl
    | cons _ _ => exact e.elim
  | cons o os ih => intro vs h A e hq; cases vs with
    | nil => exact e.elim
    | cons v vs =>
      obtain ⟨A1, A2, h1, h2, -, -⟩ := e
      rw [viewAll, hf h1 (hq v (by simp)), C.bind_ok, ih h2 (fun v hv => hq v (by simp [hv])), C.bind_ok]
      rfl

theorem TMem.view {W : TWorld} {vs : TVals} {ow : Nat → Finset Nat} {L : Finset Nat} (I : TMem W vs ow L) {x : Nat} {v : TVal} (hv : vs x = some v)
    (hd : v.Done) : W.view x = .ok v.view := by
  unfold TWorld.view
  rcases I.cases x (fun u hu => by rw [hv] at hu; injection hu with hu; rw [← hu]; exact hd) with ⟨h1, h2, h3⟩ | ⟨o, u, e, h1, h2, h3, h4⟩ | ⟨o, u, h1, h2, h3, h4⟩ | ⟨o, u, e, h1, h2, h3, h4, h5⟩ <;> rw [h2] at hv
  · cases hv
  · injection hv with hv
    subst hv
    simp only [h1]
    rw [h3.view h4]
    rfl
  · injection hv with hv
    subst hv
    simp only [h1]
    rw [h3.view h4]
    rfl
  · injection hv with hv
    subst hv
    simp only [h1]
    obtain ⟨eo, eu, A1, A2, a1, a2, -, -⟩ := h3
    obtain ⟨A1', e1, -⟩ := a1.each
    obtain ⟨A2', e2, -⟩ := a2.each
    rw [a1.access, C.bind_ok, a2.access, C.bind_ok]
    rw [viewAll_ok (Q := fun v => v.1.scriptSig.status = .done) (fun a q => InAt.view a q) e1 (mem_fst (by rw [← eu]; exact h5.1)), C.bind_ok]
    rw [viewAll_ok (Q := fun v => v.scriptPubkey.status = .done) (fun a q => OutAt.view a q) e2 h5.2, C.bind_ok]
    rw [show List.map (fun v : TxIn × Bool => viewIn v.1) (u.txIns.zip e) = u.txIns.map viewIn by
      rw [show (fun v : TxIn × Bool => viewIn v.1) = viewIn ∘ Prod.fst from rfl, ← List.map_map, ← eu]]
    rw [show o.version = u.version by rw [eo], show o.locktime = u.locktime by rw [eo]]
    rfl

theorem TInv.view {W : TWorld} {vs : TVals} {ow : Nat → Finset Nat} {L : Finset Nat} (I : TInv W vs ow L) {x : Nat} {v : TVal} (hv : vs x = some v) :
    W.view x = .ok v.view := I.toTMem.view hv (I.done x v hv)

theorem TMem.none {W : TWorld} {vs : TVals} {ow : Nat → Finset Nat} {L : Finset Nat} (I : TMem W vs ow L) {x : Nat} (h : vs x = none) :
    W.objs x = none ∧ ow x = ∅ := by
  rcases I.cases0 x with ⟨h1, -, h3⟩ | ⟨o, u, e, -, h2, -⟩ | ⟨o, u, -, h2, -⟩ | ⟨o, u, e, -, h2, -⟩
  · exact ⟨h1, h3⟩
  all_goals rw [h] at h2; cases h2

theorem TInv.none {W : TWorld} {vs : TVals} {ow : Nat → Finset Nat} {L : Finset Nat} (I : TInv W vs ow L) {x : Nat} (h : vs x = none) :
    W.objs x = none ∧ ow x = ∅ := I.toTMem.none h

/-- A program of allowed statements, from the start. -/
theorem tstart_ok (denies : Nat → Nat → Bool) (g : (TWorld.init denies).heap.Generous) (ops : List TOp) (ha : TAllAllowed ops fun _ => none) :
    ∃ W ow L, (TWorld.init denies).run ops = .ok W ∧ TInv W (TVals.run ops fun _ => none) ow L ∧ W.heap.denies = denies ∧
      L.card = tallLosses ops fun _ => none := by
  obtain ⟨W, ow, L, h1, h2, h3, h4⟩ := trun_ok ops (TInv.init denies) g ha
  exact ⟨W, ow, L, h1, h2, h3, by simpa using h4⟩

/-- C84: every program of allowed statements runs without memory error, and what can be read from a variable at its end is what it
holds where variables are values. -/
theorem C84_values (denies : Nat → Nat → Bool) (g : (TWorld.init denies).heap.Generous) (ops : List TOp) (ha : TAllAllowed ops fun _ => none) :
    ∃ W, (TWorld.init denies).run ops = .ok W ∧ ∀ x,
      (TVals.run ops (fun _ => none) x = none → W.objs x = none) ∧ ∀ v, TVals.run ops (fun _ => none) x = some v → W.view x = .ok v.view := by
  obtain ⟨W, ow, L, h1, I, -, -⟩ := tstart_ok denies g ops ha
  exact ⟨W, h1, fun x => ⟨fun h => (I.none h).1, fun v h => I.view h⟩⟩

/-- A copy of a complete script has its bytes. -/
theorem bytes_copy (v : Script) : v.copy.bytes = v.bytes := by
  unfold Script.copy
  split
  · simp [Script.bytes]
  · have : v.scriptLen = 0 := by omega
    simp [Script.bytes, this]

theorem bytes_assign (v : Script) : (({} : Script).assign v).bytes = v.bytes := by
  unfold Script.assign
  by_cases h : v.scriptLen > 0
  · simp [h, Script.bytes, Script.clear]
  · have : v.scriptLen = 0 := by omega
    simp [Script.bytes, Script.clear, this]

theorem viewIn_copy (v : TxIn) : viewIn v.copy = viewIn v := by
  unfold viewIn TxIn.copy Witness.copy
  simp only [bytes_copy]

theorem viewIn_assign (v : TxIn) : viewIn (({} : TxIn).assign v) = viewIn v := by
  unfold viewIn TxIn.assign Witness.assign
  simp only [bytes_assign]

theorem viewOut_copy (v : TxOut) : viewOut v.copy = viewOut v := by
  unfold viewOut TxOut.copy
  simp only [bytes_copy]

theorem viewOut_assign (v : TxOut) : viewOut (({} : TxOut).assign v) = viewOut v := by
  unfold viewOut TxOut.assign
  simp only [bytes_assign]

/-- C84: a copy holds what the original held, whatever happens to the original or to any other variable afterwards. -/
theorem C84_copies (denies : Nat → Nat → Bool) (g : (TWorld.init denies).heap.Generous) (ops1 ops2 : List TOp) (x y : Nat)
    (ha : TAllAllowed (ops1 ++ .copy x y :: ops2) fun _ => none) (hx : ∀ op ∈ ops1, op.target ≠ x) (hx2 : ∀ op ∈ ops2, op.target ≠ x)
    (W1 : TWorld) (h1 : (TWorld.init denies).run ops1 = .ok W1) (hy : W1.objs y ≠ none) :
    ∃ W d, (TWorld.init denies).run (ops1 ++ .copy x y :: ops2) = .ok W ∧ W1.view y = .ok d ∧ W.view x = .ok d := by
  obtain ⟨W, ow, L, h2, I, -, -⟩ := tstart_ok denies g _ ha
  obtain ⟨ha1, ha2⟩ := tallAllowed_append ha
  obtain ⟨W1', ow1, L1, h1', I1, -, -⟩ := tstart_ok denies g _ ha1
  rw [h1] at h1'
  injection h1' with e
  subst e
  obtain ⟨v, hv⟩ : ∃ v, TVals.run ops1 (fun _ => none) y = some v := by
    cases hvy : TVals.run ops1 (fun _ => none) y with
    | none => exact absurd (I1.none hvy).1 hy
    | some v => exact ⟨v, rfl⟩
  have hnx : TVals.run ops1 (fun _ => none) x = none := TVals.run_ne ops1 hx
  refine ⟨W, v.view, h2, I1.view hv, ?_⟩
  have hfin : TVals.run (ops1 ++ .copy x y :: ops2) (fun _ => none) x = TVals.step (TVals.run ops1 fun _ => none) (.copy x y) x := by
    rw [TVals.run_append, TVals.run, TVals.run_ne ops2 hx2]
  cases v with
  | txIn v e =>
    simp only [TVals.step, hnx, hv, TVals.put_eq] at hfin
    rw [I.view hfin]
    simp only [TVal.view, viewIn_copy]
  | txOut v =>
    simp only [TVals.step, hnx, hv, TVals.put_eq] at hfin
    rw [I.view hfin]
    simp only [TVal.view, viewOut_copy]
  | tx v e =>
    simp only [TVals.step, hnx, hv, TVals.put_eq] at hfin
    rw [I.view hfin]
    simp only [TVal.view, Tx.copy, List.map_map]
    congr 2
    · exact List.map_congr_left fun i _ => viewIn_assign i
    · exact List.map_congr_left fun i _ => viewOut_assign i

/-- C84: after `x.addInput(y)` the last input of `x` holds what `y` holds and the others what they held; changing or destroying `y`
afterwards does not change `x`. -/
theorem C84_addInput (denies : Nat → Nat → Bool) (g : (TWorld.init denies).heap.Generous) (ops1 ops2 : List TOp) (x y : Nat)
    (ha : TAllAllowed (ops1 ++ .addInput x y :: ops2) fun _ => none) (hx2 : ∀ op ∈ ops2, op.target ≠ x)
    (W1 : TWorld) (h1 : (TWorld.init denies).run ops1 = .ok W1) (ver lock : UInt32) (ins : List InView) (outs : List OutView) (d : InView)
    (hx : W1.view x = .ok (.tx ver ins outs lock)) (hy : W1.view y = .ok (.txIn d)) :
    ∃ W, (TWorld.init denies).run (ops1 ++ .addInput x y :: ops2) = .ok W ∧ W.view x = .ok (.tx ver (ins ++ [d]) outs lock) := by
  obtain ⟨W, ow, L, h2, I, -, -⟩ := tstart_ok denies g _ ha
  obtain ⟨ha1, ha2⟩ := tallAllowed_append ha
  obtain ⟨W1', ow1, L1, h1', I1, -, -⟩ := tstart_ok denies g _ ha1
  rw [h1] at h1'
  injection h1' with e
  subst e
  have isSome : ∀ z w, W1.view z = .ok w → ∃ v, TVals.run ops1 (fun _ => none) z = some v ∧ v.view = w := by
    intro z w hz
    cases hvy : TVals.run ops1 (fun _ => none) z with
    | none =>
      unfold TWorld.view at hz
      rw [(I1.none hvy).1] at hz
      cases hz
    | some v =>
      rw [I1.view hvy] at hz
      injection hz with hz
      exact ⟨v, rfl, hz⟩
  obtain ⟨vx, hvx, ex⟩ := isSome x _ hx
  obtain ⟨vy, hvy, ey⟩ := isSome y _ hy
  refine ⟨W, h2, ?_⟩
  have hfin : TVals.run (ops1 ++ .addInput x y :: ops2) (fun _ => none) x = TVals.step (TVals.run ops1 fun _ => none) (.addInput x y) x := by
    rw [TVals.run_append, TVals.run, TVals.run_ne ops2 hx2]
  cases vx with
  | txIn _ _ => cases ex
  | txOut _ => cases ex
  | tx v e =>
    cases vy with
    | txOut _ => cases ey
    | tx _ _ => cases ey
    | txIn u f =>
      simp only [TVals.step, hvx, hvy, TVals.put_eq] at hfin
      rw [I.view hfin]
      injection ex with e1 e2 e3 e4
      injection ey with e5
      simp only [TVal.view, Tx.addInput, List.map_append, List.map_map, List.map_cons, List.map_nil]
      rw [e1, e3, e4, viewIn_assign, viewIn_copy, e5]
      congr 3
      rw [← e2]
      exact List.map_congr_left fun i _ => viewIn_assign i

/-- C84: the memory in use at the end of a program: the blocks of its variables, each with one owner, and the arrays without elements
which copying or assigning transactions without inputs or outputs has made. -/
theorem C84_losses (denies : Nat → Nat → Bool) (g : (TWorld.init denies).heap.Generous) (ops : List TOp) (ha : TAllAllowed ops fun _ => none) :
    ∃ W, ∃ L : Finset Nat, ∃ ow : Nat → Finset Nat, (TWorld.init denies).run ops = .ok W ∧ L.card = tallLosses ops (fun _ => none) ∧
      (∀ q, W.heap.blocks q ≠ none ↔ (∃ x, q ∈ ow x) ∨ q ∈ L) ∧ (∀ x y, x ≠ y → Disjoint (ow x) (ow y)) ∧ (∀ x, Disjoint (ow x) L) ∧
      ∀ x, W.objs x = none → ow x = ∅ := by
  obtain ⟨W, ow, L, h1, I, -, h4⟩ := tstart_ok denies g ops ha
  refine ⟨W, L, ow, h1, h4, I.live, I.sep, I.lost, fun x hx => ?_⟩
  rcases I.cases x with ⟨-, -, h3⟩ | ⟨o, u, e, h1, -⟩ | ⟨o, u, h1, -⟩ | ⟨o, u, e, h1, -⟩
  · exact h3
  all_goals rw [hx] at h1; cases h1

/-- C84: once all variables are gone, the memory still in use is one block for every array without elements that copying or assigning
a transaction made; if no transaction without inputs or outputs was copied or assigned, none. -/
theorem C84_rest (denies : Nat → Nat → Bool) (g : (TWorld.init denies).heap.Generous) (ops : List TOp) (ha : TAllAllowed ops fun _ => none)
    (hend : ∀ x, TVals.run ops (fun _ => none) x = none) :
    ∃ W, ∃ L : Finset Nat, (TWorld.init denies).run ops = .ok W ∧ L.card = tallLosses ops (fun _ => none) ∧ ∀ q, W.heap.blocks q ≠ none ↔ q ∈ L := by
  obtain ⟨W, ow, L, h1, I, -, h4⟩ := tstart_ok denies g ops ha
  refine ⟨W, L, h1, h4, fun q => (I.live q).trans ⟨fun h => ?_, Or.inr⟩⟩
  rcases h with ⟨x, hx⟩ | h
  · rw [(I.none (hend x)).2] at hx
    simp at hx
  · exact h

/-- C84: destroying a variable is a memory error exactly if an input in it has a witness that holds no bytes and has held some before. -/
theorem C84_destroy (denies : Nat → Nat → Bool) (g : (TWorld.init denies).heap.Generous) (ops : List TOp) (ha : TAllAllowed ops fun _ => none)
    (x : Nat) (v : TVal) (hv : TVals.run ops (fun _ => none) x = some v) :
    (TWorld.init denies).run (ops ++ [.destroy x]) = .ub ↔ v.Spoilt := by
  obtain ⟨W, ow, L, h1, I, -, -⟩ := tstart_ok denies g ops ha
  rw [TWorld.run_append, h1, C.bind_ok]
  constructor
  · intro hub
    by_contra hc
    obtain ⟨W', vs', ow', E, s⟩ := tstep_ok I (.destroy x) (fun u hu => by rw [hv] at hu; injection hu with hu; rw [← hu]; exact hc)
    simp only [TWorld.run, s.run] at hub
    cases hub
  · intro hs
    rcases I.cases x with ⟨-, h2, -⟩ | ⟨o, u, e, k1, h2, h3, -⟩ | ⟨o, u, k1, h2, -⟩ | ⟨o, u, e, k1, h2, h3, -⟩ <;> rw [h2] at hv
    · cases hv
    · injection hv with hv
      subst hv
      simp only [TWorld.run, TWorld.step, k1]
      rw [HTxIn.destroy_at_ub h3 hs]
      rfl
    · injection hv with hv
      subst hv
      exact hs.elim
    · injection hv with hv
      subst hv
      simp only [TWorld.run, TWorld.step, k1]
      rw [HTx.destroy_at_ub I.wf h3 hs]
      rfl

/-- C84: adding an input to a transaction, or assigning to it, deletes its inputs: a memory error exactly if one has such a witness. -/
theorem C84_overwrite (denies : Nat → Nat → Bool) (g : (TWorld.init denies).heap.Generous) (ops : List TOp) (ha : TAllAllowed ops fun _ => none)
    (x y : Nat) (v : Tx) (e : List Bool) (hv : TVals.run ops (fun _ => none) x = some (.tx v e)) :
    (∀ w f, TVals.run ops (fun _ => none) y = some (.txIn w f) → ((TWorld.init denies).run (ops ++ [.addInput x y]) = .ub ↔ (TVal.tx v e).Spoilt)) ∧
    (∀ w f, x ≠ y → TVals.run ops (fun _ => none) y = some (.tx w f) → ((TWorld.init denies).run (ops ++ [.assign x y]) = .ub ↔ (TVal.tx v e).Spoilt)) := by
  obtain ⟨W, ow, L, h1, I, -, -⟩ := tstart_ok denies g ops ha
  obtain ⟨o, k1, a, k4, k5⟩ : ∃ o, W.objs x = some (.tx o) ∧ TxAt o v (v.txIns.zip e) W.heap (ow x) ∧ e.length = v.txIns.length ∧ v.AllDone := by
    rcases I.cases x with ⟨-, h2, -⟩ | ⟨o, u, e, k1, h2, h3, -⟩ | ⟨o, u, k1, h2, -⟩ | ⟨o, u, e', k1, h2, h3, h4, h5⟩ <;> rw [h2] at hv
    · cases hv
    · injection hv with hv; cases hv
    · injection hv with hv; cases hv
    · injection hv with hv
      injection hv with e1 e2
      subst e1 e2
      exact ⟨o, k1, h3, h4, h5⟩
  refine ⟨fun w f hw => ?_, fun w f hxy hw => ?_⟩
  · rw [TWorld.run_append, h1, C.bind_ok]
    constructor
    · intro hub
      by_contra hc
      obtain ⟨W', vs', ow', E, s⟩ := tstep_ok I (.addInput x y) (fun v' e' _ _ hu _ => by
        rw [hv] at hu; injection hu with hu; rw [← hu]; exact hc)
      simp only [TWorld.run, s.run] at hub
      cases hub
    · intro hs
      rcases I.cases y with ⟨-, h2, -⟩ | ⟨oo, u, e', q1, h2, h3, h4⟩ | ⟨oo, u, q1, h2, -⟩ | ⟨oo, u, e', q1, h2, h3, h4, h5⟩ <;> rw [h2] at hw
      · cases hw
      · simp only [TWorld.run, TWorld.step, k1, q1]
        rw [HTx.addInput_at_ub I.wf a h3 hs (a.fits k5).1 (h3.fits h4)]
        rfl
      · injection hw with hw; cases hw
      · injection hw with hw; cases hw
  · rw [TWorld.run_append, h1, C.bind_ok]
    constructor
    · intro hub
      by_contra hc
      obtain ⟨W', vs', ow', E, s⟩ := tstep_ok I (.assign x y) (fun _ v' e' _ _ hu _ => by
        rw [hv] at hu; injection hu with hu; rw [← hu]; exact hc)
      simp only [TWorld.run, s.run] at hub
      cases hub
    · intro hs
      rcases I.cases y with ⟨-, h2, -⟩ | ⟨oo, u, e', q1, h2, h3, h4⟩ | ⟨oo, u, q1, h2, -⟩ | ⟨oo, u, e', q1, h2, h3, h4, h5⟩ <;> rw [h2] at hw
      · cases hw
      · injection hw with hw; cases hw
      · injection hw with hw; cases hw
      · simp only [TWorld.run, TWorld.step, k1, q1, if_neg hxy]
        rw [HTx.assign_at_ub I.wf a oo hs]
        rfl

/-- One more statement. -/
theorem tallAllowed_snoc {op : TOp} : ∀ {ops : List TOp} {vs : TVals}, TAllAllowed ops vs → TAllowed (TVals.run ops vs) op → TAllAllowed (ops ++ [op]) vs := by
  intro ops
  induction ops with
  | nil => intro vs _ h2; exact ⟨h2, trivial⟩
  | cons o ops ih =>
    intro vs h1 h2
    exact ⟨h1.1, ih h1.2 h2⟩

/-- C84: `t.txIns[i].witness.clear()` on an input whose witness holds bytes makes the transaction one that cannot be destroyed. -/
theorem C84_clear_witness (denies : Nat → Nat → Bool) (g : (TWorld.init denies).heap.Generous) (ops : List TOp) (ha : TAllAllowed ops fun _ => none)
    (x i : Nat) (v : Tx) (e : List Bool) (t : TxIn) (hv : TVals.run ops (fun _ => none) x = some (.tx v e)) (hi : v.txIns[i]? = some t) (he : e[i]? = some true) :
    (TWorld.init denies).run (ops ++ [.onInput x i .clearWitness, .destroy x]) = .ub := by
  have hstep : TVals.step (TVals.run ops fun _ => none) (.onInput x i .clearWitness) = TVals.put (TVals.run ops fun _ => none) x
      (some (.tx { v with txIns := v.txIns.set i (actOn t .clearWitness) } (e.set i true))) := by
    simp only [TVals.step, hv, hi, he, Bool.true_or]
  have ha2 : TAllAllowed (ops ++ [.onInput x i .clearWitness]) fun _ => none :=
    tallAllowed_snoc ha trivial
  have hrun : TVals.run (ops ++ [.onInput x i .clearWitness]) (fun _ => none) x = some (.tx { v with txIns := v.txIns.set i (actOn t .clearWitness) } (e.set i true)) := by
    rw [TVals.run_append, TVals.run, TVals.run, hstep, TVals.put_eq]
  have := (C84_destroy denies g _ ha2 x _ hrun).2 ⟨(actOn t .clearWitness, true), ?_, ⟨by simp [actOn, Witness.clear], rfl⟩⟩
  · rwa [List.append_assoc] at this
  · have l1 : i < v.txIns.length := by
      by_contra hc
      rw [List.getElem?_eq_none (by omega)] at hi
      cases hi
    have l2 : i < e.length := by
      by_contra hc
      rw [List.getElem?_eq_none (by omega)] at he
      cases he
    refine List.mem_of_getElem? (i := i) ?_
    rw [List.getElem?_zip_eq_some]
    simp [l1, l2]

/-- C84: assigning an input without witness to an input variable that has held one makes a variable that cannot be destroyed. -/
theorem C84_assign_input (denies : Nat → Nat → Bool) (g : (TWorld.init denies).heap.Generous) (ops : List TOp) (ha : TAllAllowed ops fun _ => none)
    (x y : Nat) (v w : TxIn) (f : Bool) (hxy : x ≠ y) (hv : TVals.run ops (fun _ => none) x = some (.txIn v true))
    (hw : TVals.run ops (fun _ => none) y = some (.txIn w f)) (h0 : w.witness.arr = []) :
    (TWorld.init denies).run (ops ++ [.assign x y, .destroy x]) = .ub := by
  have hstep : TVals.step (TVals.run ops fun _ => none) (.assign x y) = TVals.put (TVals.run ops fun _ => none) x (some (.txIn (v.assign w) true)) := by
    simp only [TVals.step, hv, hw, if_neg hxy, TVals.inp, Bool.true_or]
  have ha2 : TAllAllowed (ops ++ [.assign x y]) fun _ => none :=
    tallAllowed_snoc ha (fun _ v' e' w' f' hu _ => by rw [hv] at hu; injection hu with hu; cases hu)
  have hrun : TVals.run (ops ++ [.assign x y]) (fun _ => none) x = some (.txIn (v.assign w) true) := by
    rw [TVals.run_append, TVals.run, TVals.run, hstep, TVals.put_eq]
  have := (C84_destroy denies g _ ha2 x _ hrun).2 ⟨by simp [TxIn.assign, Witness.assign, h0], rfl⟩
  rwa [List.append_assoc] at this

/-! ### Whatever requests for memory are refused -/

/-- The statements other than pushing to a witness. -/
def TOp.plain : TOp → Prop
  | .onIn _ (.push _) | .onInput _ _ (.push _) => False
  | _ => True

/-- A witness that has never held bytes. -/
def HWitness.Bare (w : HWitness) : Prop := w.witnessLen = 0 ∧ w.ptr = 0

def TObj.Bare : TObj → Prop
  | .txIn o => o.witness.Bare
  | .txOut _ => True
  | .tx o => ∀ i ∈ o.txIns, i.witness.Bare

theorem HWitness.take_bare {w o w' : HWitness} {h h' : Heap} (hw : w.Bare) (ho : o.Bare) (e : w.take o h = .ok (w', h')) : w'.Bare := by
  unfold take at e
  rw [if_neg (by rw [ho.1]; simp)] at e
  injection e with e
  injection e with e _
  rw [← e]
  exact hw

theorem HWitness.clear_bare {w w' : HWitness} {h h' : Heap} (hw : w.Bare) (e : w.clear h = .ok (w', h')) : w'.Bare := by
  unfold clear at e
  rw [if_neg (by rw [hw.1]; simp)] at e
  injection e with e
  injection e with e _
  rw [← e]
  exact hw

theorem HWitness.assign_bare {w o w' : HWitness} {h h' : Heap} (hw : w.Bare) (ho : o.Bare) (e : w.assign o h = .ok (w', h')) : w'.Bare := by
  unfold assign at e
  obtain ⟨⟨w1, h1⟩, e1, e⟩ := C.ok_inv e
  exact take_bare (clear_bare hw e1) ho e

theorem HTxIn.assign_bare {t o t' : HTxIn} {h h' : Heap} (ht : t.witness.Bare) (ho : o.witness.Bare) (e : t.assign o h = .ok (t', h')) : t'.witness.Bare := by
  unfold assign at e
  obtain ⟨⟨sc, h1⟩, -, e⟩ := C.ok_inv e
  obtain ⟨⟨w, h2⟩, e2, e⟩ := C.ok_inv e
  injection e with e
  injection e with e _
  rw [← e]
  exact HWitness.assign_bare ht ho e2

theorem HTxIn.copy_bare {o t' : HTxIn} {h h' : Heap} (ho : o.witness.Bare) (e : o.copy h = .ok (t', h')) : t'.witness.Bare := by
  unfold copy at e
  obtain ⟨⟨sc, h1⟩, -, e⟩ := C.ok_inv e
  obtain ⟨⟨w, h2⟩, e2, e⟩ := C.ok_inv e
  injection e with e
  injection e with e _
  rw [← e]
  exact HWitness.take_bare (w := {}) ⟨rfl, rfl⟩ ho e2

theorem eachH_bare : ∀ {os os' : List HTxIn} {h h' : Heap}, (∀ o ∈ os, o.witness.Bare) → eachH (({} : HTxIn).assign ·) os h = .ok (os', h') → ∀ o ∈ os', o.witness.Bare := by
  intro os
  induction os with
  | nil =>
    intro os' h h' _ e
    injection e with e
    injection e with e _
    rw [← e]
    simp
  | cons x os ih =>
    intro os' h h' hb e
    rw [eachH] at e
    obtain ⟨⟨y, h1⟩, e1, e⟩ := C.ok_inv e
    obtain ⟨⟨ys, h2⟩, e2, e⟩ := C.ok_inv e
    injection e with e
    injection e with e _
    rw [← e]
    intro o ho
    rcases List.mem_cons.1 ho with rfl | ho
    · exact HTxIn.assign_bare (t := {}) ⟨rfl, rfl⟩ (hb x (by simp)) e1
    · exact ih (fun o ho => hb o (by simp [ho])) e2 o ho

theorem HTx.take_bare {t o t' : HTx} {h h' : Heap} (ho : ∀ i ∈ o.txIns, i.witness.Bare) (e : t.take o h = .ok (t', h')) : ∀ i ∈ t'.txIns, i.witness.Bare := by
  unfold take at e
  dsimp only at e
  obtain ⟨-, -, e⟩ := C.ok_inv e
  obtain ⟨⟨ins, h1⟩, e1, e⟩ := C.ok_inv e
  obtain ⟨-, -, e⟩ := C.ok_inv e
  obtain ⟨⟨outs, h2⟩, e2, e⟩ := C.ok_inv e
  injection e with e
  injection e with e _
  rw [← e]
  exact eachH_bare ho e1

theorem HTxIn.act_bare {t t' : HTxIn} {h h' : Heap} {op : InOp} (hp : ∀ d, op ≠ .push d) (ht : t.witness.Bare) (e : t.act h op = .ok (t', h')) : t'.witness.Bare := by
  cases op with
  | push d => exact absurd rfl (hp d)
  | clearWitness =>
    obtain ⟨⟨w, h1⟩, e1, e⟩ := C.ok_inv e
    injection e with e
    injection e with e _
    rw [← e]
    exact HWitness.clear_bare ht e1
  | setScript d =>
    obtain ⟨⟨arg, h1⟩, -, e⟩ := C.ok_inv e
    obtain ⟨⟨sc, h2⟩, -, e⟩ := C.ok_inv e
    obtain ⟨h3, -, e⟩ := C.ok_inv e
    injection e with e
    injection e with e _
    rw [← e]
    exact ht

/-- No variable has ever held a witness. -/
def TWorld.Bare (W : TWorld) : Prop := ∀ x o, W.objs x = some o → o.Bare

theorem TWorld.Bare.put {W : TWorld} (b : W.Bare) {x : Nat} {o : Option TObj} {h : Heap} (ho : ∀ u, o = some u → u.Bare) : (W.put x o h).Bare := by
  intro y u hu
  have : (W.put x o h).objs y = if y = x then o else W.objs y := rfl
  rw [this] at hu
  split at hu
  · exact ho u hu
  · exact b y u hu

theorem bare_one {o : TObj} (h : o.Bare) : ∀ u, some o = some u → u.Bare := fun u e => by injection e with e; rw [← e]; exact h

theorem TWorld.step_bare {W W' : TWorld} {op : TOp} (b : W.Bare) (hp : op.plain) (e : W.step op = .ok W') : W'.Bare := by
  cases op with
  | newIn x prevId idx data seq =>
    simp only [TWorld.step] at e
    split at e
    · obtain ⟨⟨o, h⟩, e1, e⟩ := C.ok_inv e
      injection e with e
      rw [← e]
      refine b.put (bare_one ?_)
      unfold HTxIn.make at e1
      obtain ⟨⟨arg, h1⟩, -, e1⟩ := C.ok_inv e1
      obtain ⟨⟨sc, h2⟩, -, e1⟩ := C.ok_inv e1
      obtain ⟨h3, -, e1⟩ := C.ok_inv e1
      injection e1 with e1
      injection e1 with e1 _
      rw [← e1]
      exact ⟨rfl, rfl⟩
    · injection e with e; rw [← e]; exact b
  | newOut x amount data =>
    simp only [TWorld.step] at e
    split at e
    · obtain ⟨⟨o, h⟩, e1, e⟩ := C.ok_inv e
      injection e with e
      rw [← e]
      exact b.put (bare_one trivial)
    · injection e with e; rw [← e]; exact b
  | newTx x =>
    simp only [TWorld.step] at e
    split at e
    · injection e with e
      rw [← e]
      exact b.put (bare_one (fun _ h => by simp at h))
    · injection e with e; rw [← e]; exact b
  | copy x y =>
    simp only [TWorld.step] at e
    split at e
    · rename_i hy
      obtain ⟨⟨o, h⟩, e1, e⟩ := C.ok_inv e
      injection e with e
      rw [← e]
      exact b.put (bare_one (HTxIn.copy_bare (b y _ hy) e1))
    · obtain ⟨⟨o, h⟩, e1, e⟩ := C.ok_inv e
      injection e with e
      rw [← e]
      exact b.put (bare_one trivial)
    · rename_i hy
      obtain ⟨⟨o, h⟩, e1, e⟩ := C.ok_inv e
      injection e with e
      rw [← e]
      exact b.put (bare_one (HTx.take_bare (b y _ hy) e1))
    · injection e with e; rw [← e]; exact b
  | assign x y =>
    simp only [TWorld.step] at e
    split at e
    · injection e with e; rw [← e]; exact b
    split at e
    · rename_i hx hy
      obtain ⟨⟨o, h⟩, e1, e⟩ := C.ok_inv e
      injection e with e
      rw [← e]
      exact b.put (bare_one (HTxIn.assign_bare (b x _ hx) (b y _ hy) e1))
    · obtain ⟨⟨o, h⟩, e1, e⟩ := C.ok_inv e
      injection e with e
      rw [← e]
      exact b.put (bare_one trivial)
    · rename_i hx hy
      obtain ⟨⟨o, h⟩, e1, e⟩ := C.ok_inv e
      injection e with e
      rw [← e]
      unfold HTx.assign at e1
      obtain ⟨h1, -, e1⟩ := C.ok_inv e1
      obtain ⟨h2, -, e1⟩ := C.ok_inv e1
      exact b.put (bare_one (HTx.take_bare (b y _ hy) e1))
    · injection e with e; rw [← e]; exact b
  | addInput x y =>
    simp only [TWorld.step] at e
    split at e
    · rename_i hx hy
      obtain ⟨⟨o, r, h⟩, e1, e⟩ := C.ok_inv e
      injection e with e
      rw [← e]
      unfold HTx.addInput at e1
      obtain ⟨⟨arg, h1⟩, e0, e1⟩ := C.ok_inv e1
      dsimp only at e1
      obtain ⟨-, -, e1⟩ := C.ok_inv e1
      obtain ⟨⟨ins, h2⟩, e2, e1⟩ := C.ok_inv e1
      obtain ⟨⟨last, h3⟩, e3, e1⟩ := C.ok_inv e1
      obtain ⟨h4, -, e1⟩ := C.ok_inv e1
      obtain ⟨h5, -, e1⟩ := C.ok_inv e1
      injection e1 with e1
      injection e1 with e1 _
      rw [← e1]
      refine b.put (bare_one fun i hi => ?_)
      rcases List.mem_append.1 hi with hi | hi
      · exact eachH_bare (b x _ hx) e2 i hi
      · rw [List.mem_singleton.1 hi]
        exact HTxIn.assign_bare (t := {}) ⟨rfl, rfl⟩ (HTxIn.copy_bare (b y _ hy) e0) e3
    · injection e with e; rw [← e]; exact b
  | addOutput x y =>
    simp only [TWorld.step] at e
    split at e
    · rename_i hx hy
      obtain ⟨⟨o, r, h⟩, e1, e⟩ := C.ok_inv e
      injection e with e
      rw [← e]
      unfold HTx.addOutput at e1
      obtain ⟨⟨arg, h1⟩, e0, e1⟩ := C.ok_inv e1
      dsimp only at e1
      obtain ⟨-, -, e1⟩ := C.ok_inv e1
      obtain ⟨⟨ins, h2⟩, e2, e1⟩ := C.ok_inv e1
      obtain ⟨⟨last, h3⟩, e3, e1⟩ := C.ok_inv e1
      obtain ⟨h4, -, e1⟩ := C.ok_inv e1
      obtain ⟨h5, -, e1⟩ := C.ok_inv e1
      injection e1 with e1
      injection e1 with e1 _
      rw [← e1]
      have hb := b x _ hx
      exact b.put (bare_one fun i hi => hb i hi)
    · injection e with e; rw [← e]; exact b
  | onIn x op =>
    simp only [TWorld.step] at e
    split at e
    · rename_i hx
      obtain ⟨⟨o, h⟩, e1, e⟩ := C.ok_inv e
      injection e with e
      rw [← e]
      exact b.put (bare_one (HTxIn.act_bare (fun d hd => by rw [hd] at hp; exact hp) (b x _ hx) e1))
    · injection e with e; rw [← e]; exact b
  | onInput x i op =>
    simp only [TWorld.step] at e
    split at e
    · rename_i t hx
      split at e
      · rename_i o hi
        obtain ⟨-, -, e⟩ := C.ok_inv e
        obtain ⟨⟨o, h⟩, e1, e⟩ := C.ok_inv e
        injection e with e
        rw [← e]
        refine b.put (bare_one fun j hj => ?_)
        rcases List.mem_or_eq_of_mem_set hj with hj | hj
        · exact b x _ hx j hj
        · rw [hj]
          exact HTxIn.act_bare (fun d hd => by rw [hd] at hp; exact hp) (b x _ hx _ (List.mem_of_getElem? hi)) e1
      · injection e with e; rw [← e]; exact b
    · injection e with e; rw [← e]; exact b
  | destroy x =>
    simp only [TWorld.step] at e
    split at e
    all_goals first
      | (obtain ⟨h, -, e⟩ := C.ok_inv e
         injection e with e
         rw [← e]
         exact b.put (fun u hu => by cases hu))
      | (injection e with e; rw [← e]; exact b)

theorem InAt.not_stale {o : HTxIn} {v : TxIn × Bool} {h : Heap} {A : Finset Nat} (a : InAt o v h A) (hb : o.witness.Bare) : ¬ HTxIn.stale v := by
  obtain ⟨-, A1, A2, -, h2, -⟩ := a
  exact HWitness.not_stale h2 (Or.inl hb.2)

theorem Heap.EachAt.all {α β : Type} {P : α → β → HProp} {Q : α → Prop} {R : β → Prop} (hf : ∀ {h : Heap} {o : α} {v : β} {A : Finset Nat}, P o v h A → Q o → R v) :
    ∀ {os : List α} {vs : List β} {h : Heap} {A : Finset Nat}, EachAt P os vs h A → (∀ o ∈ os, Q o) → ∀ v ∈ vs, R v := by
  intro os
  induction os with
  | nil => intro vs h A e hq; cases vs with
    | nil => simp
    | cons _ _ => exact e.elim
  | cons o os ih => intro vs h A e hq; cases vs with
    | nil => exact e.elim
    | cons v vs =>
      obtain ⟨A1, A2, h1, h2, -, -⟩ := e
      intro u hu
      rcases List.mem_cons.1 hu with rfl | hu
      · exact hf h1 (hq o (by simp))
      · exact ih h2 (fun o ho => hq o (by simp [ho])) u hu

theorem TInv.not_spoilt {W : TWorld} {vs : TVals} {ow : Nat → Finset Nat} {L : Finset Nat} (I : TInv W vs ow L) (b : W.Bare) {x : Nat} {v : TVal} (hv : vs x = some v) :
    ¬ v.Spoilt := by
  rcases I.cases x with ⟨-, h2, -⟩ | ⟨o, u, e, k1, h2, h3, -⟩ | ⟨o, u, k1, h2, -⟩ | ⟨o, u, e, k1, h2, h3, -⟩ <;> rw [h2] at hv
  · cases hv
  · injection hv with hv
    subst hv
    exact h3.not_stale (b x _ k1)
  · injection hv with hv
    subst hv
    exact fun h => h
  · injection hv with hv
    subst hv
    rintro ⟨i, hi, hs⟩
    obtain ⟨-, -, A1, A2, h1, -⟩ := h3
    obtain ⟨A1', e1, -⟩ := h1.each
    have hb : ∀ i ∈ o.txIns, i.witness.Bare := b x _ k1
    exact EachAt.all (P := InAt) (Q := fun o => o.witness.Bare) (R := fun v => ¬ HTxIn.stale v) (fun a q => InAt.not_stale a q) e1 hb i hi hs

/-- C84: programs that do not push to witnesses are free of memory errors whatever requests for memory are refused. -/
theorem C84_any_allocator (denies : Nat → Nat → Bool) (ops : List TOp) (ho : ∀ op ∈ ops, op.plain) : ∃ W, (TWorld.init denies).run ops = .ok W := by
  have main : ∀ (ops : List TOp) (W : TWorld) (vs : TVals) (ow : Nat → Finset Nat) (L : Finset Nat), TInv W vs ow L → W.Bare → (∀ op ∈ ops, op.plain) →
      ∃ W', W.run ops = .ok W' := by
    intro ops
    induction ops with
    | nil => intro W _ _ _ _ _ _; exact ⟨W, rfl⟩
    | cons op ops ih =>
      intro W vs ow L I b ho
      have hal : TAllowed vs op := by
        cases op <;> simp only [TAllowed]
        case assign x y => exact fun _ v e w f hu _ => I.not_spoilt b hu
        case addInput x y => exact fun v e w f hu _ => I.not_spoilt b hu
        case destroy x => exact fun v hu => I.not_spoilt b hu
      obtain ⟨W1, vs1, ow1, E, s⟩ := tstep_ok I op hal
      obtain ⟨W', hr⟩ := ih W1 vs1 _ _ s.inv (TWorld.step_bare b (ho op List.mem_cons_self) s.run) fun o h => ho o (List.mem_cons_of_mem _ h)
      exact ⟨W', by rw [TWorld.run, s.run, C.bind_ok]; exact hr⟩
  exact main ops _ _ _ _ (TInv.init denies) (fun x o e => by cases e) ho

/-! ### Examples -/

def TVal.soundB : TVal → Bool
  | .txIn v e => !(v.witness.arr.isEmpty && e)
  | .txOut _ => true
  | .tx v e => (v.txIns.zip e).all fun i => !(i.1.witness.arr.isEmpty && i.2)

theorem TVal.soundB_sound {v : TVal} (h : TVal.soundB v = true) : ¬ v.Spoilt := by
  cases v with
  | txIn v e =>
    rintro ⟨h1, h2⟩
    simp [TVal.soundB, h1, h2] at h
  | txOut v => exact fun h => h
  | tx v e =>
    rintro ⟨i, hi, h1, h2⟩
    have := List.all_eq_true.1 h i hi
    simp [h1, h2] at this

/-- A check that a program on the variables below `n` is allowed. -/
def tcheck (n : Nat) : List TOp → TVals → Bool
  | [], _ => true
  | op :: ops, vs => decide (op.target < n) && (vs op.target).all (fun v => match op with
      | .assign _ _ | .addInput _ _ | .destroy _ => TVal.soundB v
      | _ => true) && tcheck n ops (vs.step op)

theorem tcheck_sound {n : Nat} : ∀ {ops : List TOp} {vs : TVals}, (∀ x, n ≤ x → vs x = none) → tcheck n ops vs = true → TAllAllowed ops vs := by
  intro ops
  induction ops with
  | nil => intro vs _ _; trivial
  | cons op ops ih =>
    intro vs h0 h
    simp only [tcheck, Bool.and_eq_true, decide_eq_true_eq] at h
    obtain ⟨⟨h2, h3⟩, h4⟩ := h
    refine ⟨?_, ih (fun x hx => ?_) h4⟩
    · cases op <;> simp only [TAllowed, TOp.target] at h3 ⊢
      case assign x y => exact fun _ v e w f hv _ => by rw [hv] at h3; exact TVal.soundB_sound h3
      case addInput x y => exact fun v e w f hv _ => by rw [hv] at h3; exact TVal.soundB_sound h3
      case destroy x => exact fun v hv => by rw [hv] at h3; exact TVal.soundB_sound h3
    · rw [TVals.step_ne (by omega)]
      exact h0 x hx

/-- A transaction with an input and an output, a copy of it, an input of the copy signed, and the copy assigned to the first. -/
def exMain : List TOp :=
  [.newTx 0, .newIn 1 [1, 2, 3] 7 [] 0xfffffffd, .newOut 2 5000 [0x51], .addInput 0 1, .addOutput 0 2, .copy 3 0, .onInput 3 0 (.push [1, 2]),
    .onInput 3 0 (.setScript [0x52]), .assign 0 3]

/-- The end of its variables. -/
def exEnd : List TOp := [.destroy 0, .destroy 1, .destroy 2, .destroy 3]

theorem exMain_ok : TAllAllowed (exMain ++ exEnd) fun _ => none := tcheck_sound (n := 4) (fun _ _ => rfl) (by decide +kernel)

/-- An allocator that refuses only what no machine has. -/
def exDenies : Nat → Nat → Bool := fun _ n => decide (2 ^ 63 ≤ n)

theorem exGenerous : (TWorld.init exDenies).heap.Generous := fun k n _ => by simp [TWorld.init, exDenies]

/-- It satisfies the hypotheses, and what is left at its end is nothing. -/
example : ∃ W, (TWorld.init exDenies).run (exMain ++ exEnd) = .ok W ∧ ∀ q, W.heap.blocks q = none := by
  obtain ⟨W, L, h1, h2, h3⟩ := C84_rest _ exGenerous _ exMain_ok (fun x => by
    rcases Nat.lt_or_ge x 4 with h | h
    · have : x = 0 ∨ x = 1 ∨ x = 2 ∨ x = 3 := by omega
      rcases this with rfl | rfl | rfl | rfl <;> decide +kernel
    · rw [TVals.run_ne]
      intro op ho
      simp only [exMain, exEnd, List.cons_append, List.nil_append, List.mem_cons, List.not_mem_nil, or_false] at ho
      rcases ho with rfl | rfl | rfl | rfl | rfl | rfl | rfl | rfl | rfl | rfl | rfl | rfl | rfl <;> simp only [TOp.target] <;> omega)
  have h0 : tallLosses (exMain ++ exEnd) (fun _ => none) = 0 := by decide +kernel
  rw [h0, Finset.card_eq_zero] at h2
  refine ⟨W, h1, fun q => ?_⟩
  by_contra hc
  have := (h3 q).1 hc
  rw [h2] at this
  simp at this

/-- The first transaction holds the signed input. -/
example : ∃ W, (TWorld.init exDenies).run exMain = .ok W ∧
    W.view 0 = .ok (.tx 1 [⟨[3, 2, 1], 7, [0x52], 0xfffffffd, 1, [2, 1, 2]⟩] [⟨5000, [0x51]⟩] 0) ∧
    W.view 1 = .ok (.txIn ⟨[3, 2, 1], 7, [], 0xfffffffd, 0, []⟩) := by
  obtain ⟨W, h1, h2⟩ := C84_values _ exGenerous exMain (tallAllowed_append exMain_ok).1
  refine ⟨W, h1, ?_⟩
  have e0 : ∃ v, TVals.run exMain (fun _ => none) 0 = some v ∧ v.view = .tx 1 [⟨[3, 2, 1], 7, [0x52], 0xfffffffd, 1, [2, 1, 2]⟩] [⟨5000, [0x51]⟩] 0 :=
    ⟨_, rfl, by decide +kernel⟩
  have e1 : ∃ v, TVals.run exMain (fun _ => none) 1 = some v ∧ v.view = .txIn ⟨[3, 2, 1], 7, [], 0xfffffffd, 0, []⟩ := ⟨_, rfl, by decide +kernel⟩
  obtain ⟨v0, f0, g0⟩ := e0
  obtain ⟨v1, f1, g1⟩ := e1
  rw [(h2 0).2 v0 f0, g0, (h2 1).2 v1 f1, g1]
  exact ⟨rfl, rfl⟩

/-- Clearing the witness of that input makes the end of the first transaction a memory error. -/
example : (TWorld.init exDenies).run (exMain ++ [.onInput 0 0 .clearWitness, .destroy 0]) = .ub := by
  obtain ⟨v, e, t, h1, h2, h3⟩ : ∃ v e t, TVals.run exMain (fun _ => none) 0 = some (.tx v e) ∧ v.txIns[0]? = some t ∧ e[0]? = some true :=
    ⟨_, _, _, rfl, rfl, by decide +kernel⟩
  exact C84_clear_witness _ exGenerous exMain (tallAllowed_append exMain_ok).1 0 0 v e t h1 h2 h3

/-- So does assigning an unsigned input to a signed one. -/
example : (TWorld.init exDenies).run ([.newIn 0 [1] 0 [] 0, .onIn 0 (.push [1]), .newIn 1 [2] 0 [] 0] ++ [.assign 0 1, .destroy 0]) = .ub := by
  have ok : TAllAllowed [.newIn 0 [1] 0 [] 0, .onIn 0 (.push [1]), .newIn 1 [2] 0 [] 0] fun _ => none :=
    tcheck_sound (n := 2) (fun _ _ => rfl) (by decide +kernel)
  obtain ⟨v, w, h1, h2, h3⟩ : ∃ v w, TVals.run [.newIn 0 [1] 0 [] 0, .onIn 0 (.push [1]), .newIn 1 [2] 0 [] 0] (fun _ => none) 0 = some (.txIn v true) ∧
      TVals.run [.newIn 0 [1] 0 [] 0, .onIn 0 (.push [1]), .newIn 1 [2] 0 [] 0] (fun _ => none) 1 = some (.txIn w false) ∧ w.witness.arr = [] :=
    ⟨_, _, rfl, rfl, by decide +kernel⟩
  exact C84_assign_input _ exGenerous _ ok 0 1 v w false (by decide) h1 h2 h3

/-- Copying a transaction without inputs or outputs loses two blocks. -/
example : tallLosses [.newTx 0, .copy 1 0, .destroy 0, .destroy 1] (fun _ => none) = 2 := by decide +kernel

example : TAllAllowed [.newTx 0, .copy 1 0, .destroy 0, .destroy 1] fun _ => none := tcheck_sound (n := 2) (fun _ _ => rfl) (by decide +kernel)

/-- Statements without pushes, with an allocator that refuses everything. -/
example : ∃ W, (TWorld.init fun _ _ => true).run [.newTx 0, .newIn 1 [1, 2, 3] 7 [0x51] 0xfffffffd, .addInput 0 1, .copy 2 0, .assign 0 2, .onInput 2 0 .clearWitness,
    .destroy 2, .destroy 0, .destroy 1] = .ok W :=
  C84_any_allocator _ _ (by intro op ho; simp only [List.mem_cons, List.not_mem_nil, or_false] at ho; rcases ho with rfl | rfl | rfl | rfl | rfl | rfl | rfl | rfl | rfl <;> trivial)

end UB
