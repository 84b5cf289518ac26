import Verif.Lemmas.HeapElectrumProgram
import Verif.Props.HeapPsbtProgram
import Verif.Props.ElectrumPieces

/-! # C88: ElectrumTx objects on a heap

Programs that construct, copy, assign, parse into and destroy ElectrumTx objects, with any number of variables and statements, on a heap where
using memory that is not owned is an error. -/

namespace UB
open Heap Spec

theorem erun_ok : ∀ (ops : List EOp) {W : EWorld} {vs : EVals} {ow : Nat → Finset Nat} {L : Finset Nat} (_ : EMem W vs ow L) (_ : W.heap.Generous)
    (_ : EAllAllowed ops vs),
    ∃ W' ow' L', W.run ops = .ok (W', vs.outs ops) ∧ EMem W' (vs.run ops) ow' L' ∧ W'.heap.denies = W.heap.denies ∧
      L ⊆ L' ∧ L'.card ≤ L.card + eallLosses ops vs := by
  intro ops
  induction ops with
  | nil => intro W vs ow L I _ _; exact ⟨W, ow, L, rfl, I, rfl, fun _ h => h, Nat.le_refl _⟩
  | cons op ops ih =>
    intro W vs ow L I g ha
    obtain ⟨ok, ha'⟩ := ha
    obtain ⟨W1, ow1, E, hs, I1, dj, hd1, hE⟩ := estep_ok I g op ok
    have g1 : W1.heap.Generous := by
      unfold Heap.Generous
      rw [hd1]
      exact g
    obtain ⟨W', ow', L', hr, I', hd, hsub, hn⟩ := ih I1 g1 ha'
    refine ⟨W', ow', L', ?_, I', hd.trans hd1, fun q hq => hsub (Finset.mem_union_left _ hq), ?_⟩
    · rw [EWorld.run, hs, C.bind_ok]
      dsimp only
      rw [hr, C.bind_ok]
      rfl
    · rw [Finset.card_union_of_disjoint dj] at hn
      rw [eallLosses]
      omega

theorem EVals.run_append : ∀ (ops1 ops2 : List EOp) (vs : EVals), EVals.run (ops1 ++ ops2) vs = EVals.run ops2 (EVals.run ops1 vs) := by
  intro ops1
  induction ops1 with
  | nil => intro ops2 vs; rfl
  | cons op ops1 ih => intro ops2 vs; exact ih ops2 _

theorem eallAllowed_append : ∀ {ops1 ops2 : List EOp} {vs : EVals}, EAllAllowed (ops1 ++ ops2) vs ↔ EAllAllowed ops1 vs ∧ EAllAllowed ops2 (EVals.run ops1 vs) := by
  intro ops1
  induction ops1 with
  | nil => intro ops2 vs; exact ⟨fun h => ⟨trivial, h⟩, fun h => h.2⟩
  | cons op ops1 ih =>
    intro ops2 vs
    constructor
    · rintro ⟨h1, h2⟩
      obtain ⟨h3, h4⟩ := ih.1 h2
      exact ⟨⟨h1, h3⟩, h4⟩
    · rintro ⟨⟨h1, h2⟩, h3⟩
      exact ⟨h1, ih.2 ⟨h2, h3⟩⟩

theorem EVals.put_eq (vs : EVals) (x : Nat) (v : Option (ElectrumTx × Bool)) : vs.put x v x = v := if_pos rfl

theorem EVals.put_ne (vs : EVals) {x y : Nat} (h : y ≠ x) (v : Option (ElectrumTx × Bool)) : vs.put x v y = vs y := if_neg h

theorem EVals.step_ne {vs : EVals} {op : EOp} {y : Nat} (h : y ≠ etarget op) : vs.step op y = vs y := by
  have P := fun v => EVals.put_ne vs h v
  cases op with
  | new x =>
    cases hx : vs x with
    | none => simp only [EVals.step, hx]; exact P _
    | some v => simp only [EVals.step, hx]
  | copy x z =>
    cases hx : vs x with
    | some v => simp only [EVals.step, hx]
    | none => cases hz : vs z with
      | none => simp only [EVals.step, hx, hz]
      | some v => cases hc : v.1.copy with
        | ub => simp only [EVals.step, hx, hz, hc]
        | ok u => simp only [EVals.step, hx, hz, hc]; exact P _
  | assign x z =>
    by_cases e : x = z
    · rw [EVals.step, if_pos e]
    · cases hx : vs x with
      | none => simp only [EVals.step, hx, if_neg e]
      | some w => cases hz : vs z with
        | none => simp only [EVals.step, hx, hz, if_neg e]
        | some v => cases hc : w.1.assign v.1 with
          | ub => simp only [EVals.step, hx, hz, hc, if_neg e]
          | ok u => simp only [EVals.step, hx, hz, hc, if_neg e]; exact P _
  | parse x junk fuel s =>
    cases hx : vs x with
    | none => simp only [EVals.step, hx]
    | some v => cases hc : v.1.fromStream junk fuel s with
      | none => simp only [EVals.step, hx, hc]
      | some r => simp only [EVals.step, hx, hc]; exact P _
  | destroy x =>
    cases hx : vs x with
    | none => simp only [EVals.step, hx]
    | some v => simp only [EVals.step, hx]; exact P _

theorem EVals.run_ne : ∀ (ops : List EOp) {vs : EVals} {y : Nat}, (∀ op ∈ ops, etarget op ≠ y) → EVals.run ops vs y = vs y := by
  intro ops
  induction ops with
  | nil => intro vs y _; rfl
  | cons op ops ih =>
    intro vs y h
    rw [EVals.run, ih fun o ho => h o (List.mem_cons_of_mem _ ho)]
    exact EVals.step_ne (Ne.symm (h op List.mem_cons_self))

theorem EWorld.run_append : ∀ (ops1 ops2 : List EOp) (W : EWorld), W.run (ops1 ++ ops2) = (do
    let (W, r1) ← W.run ops1
    let (W, r2) ← W.run ops2
    return (W, r1 ++ r2)) := by
  intro ops1
  induction ops1 with
  | nil =>
    intro ops2 W
    rw [List.nil_append, EWorld.run, C.bind_ok]
    dsimp only
    cases EWorld.run ops2 W with
    | ub => rfl
    | ok a => rfl
  | cons op ops1 ih =>
    intro ops2 W
    rw [List.cons_append, EWorld.run, EWorld.run]
    cases W.step op with
    | ub => rfl
    | ok a =>
      obtain ⟨W1, r⟩ := a
      rw [C.bind_ok, C.bind_ok]
      dsimp only
      rw [ih]
      cases EWorld.run ops1 W1 with
      | ub => rfl
      | ok b =>
        rw [C.bind_ok, C.bind_ok, C.pure_eq, C.bind_ok]
        dsimp only
        cases EWorld.run ops2 b.1 with
        | ub => rfl
        | ok c => rfl

/-- A program of allowed statements, from the start. -/
theorem estart_ok (denies : Nat → Nat → Bool) (g : (EWorld.init denies).heap.Generous) (ops : List EOp) (ha : EAllAllowed ops fun _ => none) :
    ∃ W ow L, (EWorld.init denies).run ops = .ok (W, EVals.outs ops fun _ => none) ∧ EMem W (EVals.run ops fun _ => none) ow L ∧
      W.heap.Generous ∧ L.card ≤ eallLosses ops fun _ => none := by
  obtain ⟨W, ow, L, h1, h2, h3, -, h4⟩ := erun_ok ops (EMem.init denies) g ha
  exact ⟨W, ow, L, h1, h2, by unfold Heap.Generous; rw [h3]; exact g, by simpa using h4⟩

/-- C88: every program of allowed statements, in which any bytes may have been parsed in any pieces, runs without memory error. Every
call of `from_stream` returns, leaves in the stream and reports what it does where variables are values; and what can be read from a
variable with all its metadata at the end is what it holds there. -/
theorem C88_values (denies : Nat → Nat → Bool) (g : (EWorld.init denies).heap.Generous) (ops : List EOp) (ha : EAllAllowed ops fun _ => none) :
    ∃ W, (EWorld.init denies).run ops = .ok (W, EVals.outs ops fun _ => none) ∧ ∀ x,
      (EVals.run ops (fun _ => none) x = none → W.objs x = none) ∧
        ∀ v, EVals.run ops (fun _ => none) x = some v → v.1.Full → W.view x = .ok (viewElectrum v.1) := by
  obtain ⟨W, ow, L, h1, I, -⟩ := estart_ok denies g ops ha
  refine ⟨W, h1, fun x => ⟨fun h => ?_, fun v h hs => I.view h hs.done hs.2.1⟩⟩
  rcases I.cases x with ⟨e, -⟩ | ⟨o, v, -, e, -⟩
  · exact e
  · rw [h] at e; cases e

/-- C88: nothing that happens to other variables changes what can be read from a variable: a copy shares no memory with its original. -/
theorem C88_apart (denies : Nat → Nat → Bool) (g : (EWorld.init denies).heap.Generous) (ops1 ops2 : List EOp)
    (ha : EAllAllowed (ops1 ++ ops2) fun _ => none) (x : Nat) (hx : ∀ op ∈ ops2, etarget op ≠ x) (v : ElectrumTx × Bool)
    (hv : EVals.run ops1 (fun _ => none) x = some v) (hs : v.1.Full) :
    ∃ W1 outs1 W outs, (EWorld.init denies).run ops1 = .ok (W1, outs1) ∧ (EWorld.init denies).run (ops1 ++ ops2) = .ok (W, outs) ∧
      W.view x = W1.view x ∧ W1.view x = .ok (viewElectrum v.1) := by
  obtain ⟨W, ow, L, h1, I, -⟩ := estart_ok denies g _ ha
  obtain ⟨W1, ow1, L1, h2, I1, -⟩ := estart_ok denies g _ (eallAllowed_append.1 ha).1
  have e1 := I1.view hv hs.done hs.2.1
  have hv2 : EVals.run (ops1 ++ ops2) (fun _ => none) x = some v := by
    rw [EVals.run_append, EVals.run_ne ops2 hx, hv]
  have e2 := I.view hv2 hs.done hs.2.1
  exact ⟨W1, _, W, _, h2, h1, e2.trans e1.symm, e1⟩

/-- C88: the memory in use at the end of a program: the blocks of its variables, each with one owner, and blocks nobody can give back any
more, of which `eallLosses` says how many there may be. -/
theorem C88_losses (denies : Nat → Nat → Bool) (g : (EWorld.init denies).heap.Generous) (ops : List EOp) (ha : EAllAllowed ops fun _ => none) :
    ∃ W outs, ∃ L : Finset Nat, ∃ ow : Nat → Finset Nat, (EWorld.init denies).run ops = .ok (W, outs) ∧ L.card ≤ eallLosses ops (fun _ => none) ∧
      (∀ q, W.heap.blocks q ≠ none ↔ (∃ x, q ∈ ow x) ∨ q ∈ L) ∧ (∀ x y, x ≠ y → Disjoint (ow x) (ow y)) ∧ (∀ x, Disjoint (ow x) L) ∧
      ∀ x, W.objs x = none → ow x = ∅ := by
  obtain ⟨W, ow, L, h1, I, -, h4⟩ := estart_ok denies g ops ha
  refine ⟨W, _, L, ow, h1, h4, I.live, I.sep, I.lost, fun x hx => ?_⟩
  rcases I.cases x with ⟨-, -, h3⟩ | ⟨o, v, h1, -⟩
  · exact h3
  · rw [hx] at h1; cases h1

/-- C88: once all variables are gone, only those blocks are left. -/
theorem C88_rest (denies : Nat → Nat → Bool) (g : (EWorld.init denies).heap.Generous) (ops : List EOp) (ha : EAllAllowed ops fun _ => none)
    (hend : ∀ x, EVals.run ops (fun _ => none) x = none) :
    ∃ W outs, ∃ L : Finset Nat, (EWorld.init denies).run ops = .ok (W, outs) ∧ L.card ≤ eallLosses ops (fun _ => none) ∧
      ∀ q, W.heap.blocks q ≠ none ↔ q ∈ L := by
  obtain ⟨W, ow, L, h1, I, -, h4⟩ := estart_ok denies g ops ha
  refine ⟨W, _, L, h1, h4, fun q => (I.live q).trans ⟨fun h => ?_, Or.inr⟩⟩
  rcases h with ⟨x, hx⟩ | h
  · rcases I.cases x with ⟨-, -, h3⟩ | ⟨o, v, -, e, -⟩
    · rw [h3] at hx
      simp at hx
    · rw [hend x] at e; cases e
  · exact h

/-! ### Spoiled objects -/

/-- C88 is false for a spoiled object: after any program it can neither be destroyed, nor assigned to, nor, if it is complete, parsed into: each
of these uses memory that has been given back. -/
theorem C88_spoiled (denies : Nat → Nat → Bool) (g : (EWorld.init denies).heap.Generous) (ops : List EOp) (ha : EAllAllowed ops fun _ => none) (x : Nat)
    (v : ElectrumTx) (hv : EVals.run ops (fun _ => none) x = some (v, true)) :
    (EWorld.init denies).run (ops ++ [.destroy x]) = .ub ∧
      (∀ y, y ≠ x → EVals.run ops (fun _ => none) y ≠ none → (EWorld.init denies).run (ops ++ [.assign x y]) = .ub) ∧
      (v.status = .done → ∀ junk fuel s, (EWorld.init denies).run (ops ++ [.parse x junk fuel s]) = .ub) := by
  obtain ⟨W, ow, L, k1, I, k2, -⟩ := estart_ok denies g ops ha
  rcases I.cases x with ⟨-, e, -⟩ | ⟨o, u, e1, e2, a⟩
  · rw [hv] at e; cases e
  rw [hv] at e2
  injection e2 with e2
  subst e2
  have one : ∀ op, W.step op = .ub → (EWorld.init denies).run (ops ++ [op]) = .ub := by
    intro op h
    rw [EWorld.run_append, k1, C.bind_ok]
    dsimp only
    rw [EWorld.run, h]
    rfl
  refine ⟨one _ ?_, fun y hy hn => one _ ?_, fun hd junk fuel s => one _ ?_⟩
  · rw [EWorld.step, e1]
    dsimp only
    rw [HElectrumTx.destroy_ub I.wf k2 a]
    rfl
  · rcases I.cases y with ⟨-, e, -⟩ | ⟨o', v', f1, -, -⟩
    · exact absurd e hn
    rw [EWorld.step, if_neg (Ne.symm hy), e1, f1]
    dsimp only
    rw [HElectrumTx.assign_ub I.wf k2 a]
    rfl
  · rw [EWorld.step, e1]
    dsimp only
    rw [HElectrumTx.fromStream_ub I.wf k2 a hd]
    rfl

/-! ### Which documents spoil the object -/

namespace ElectrumTx

/-- The bytes in the place of the witnesses are refused at the first input; `b`: another witness was read by then. -/
def Probes (n : Nat) (b : Bool) (W : Bytes) : Prop :=
  ∀ ins : List TxIn, ins.length = n → (∀ i ∈ ins, i.witness = {}) → ∃ j js k s, Tx.parseAll Tx.parseWitness ins (.of W) = (j :: js, k, s) ∧
    j.witness.status = .failed ∧ (∀ i ∈ j :: js, i.witness.status ≠ .ub) ∧ ((j :: js).any fun i => decide (i.witness.arr ≠ [])) = b

theorem parseWitness_status : ∀ (ins : List TxIn) (s : PStream), (∀ i ∈ ins, i.status = .done) →
    ∀ j ∈ (Tx.parseAll Tx.parseWitness ins s).1, j.status = .done
  | [], _, _ => by simp [Tx.parseAll]
  | i :: ins, s, h => by
    intro j hj
    rw [Tx.parseAll] at hj
    rcases List.mem_cons.1 hj with rfl | hj
    · exact h i (by simp)
    · exact parseWitness_status ins _ (fun i hi => h i (by simp [hi])) j hj

theorem parsed_segwit {e : ElectrumTx} (he : e.status = .done) {x : Transaction} (h : WireTx x) (hi : x.ins.length < 253)
    (ho : x.outs.length < 253) {W : Bytes} {b : Bool} (hW : Probes x.ins.length b W) :
    ∃ t, e.parsed (.of (electrumMagic ++ (leBytes 4 x.version ++ ([0x00, 0x01] ++ (compactSize x.ins.length ++ (x.ins.flatMap inBytes ++
        (compactSize x.outs.length ++ (x.outs.flatMap outBytes ++ W)))))))) = some t ∧ t.spoils = b ∧ t.txIns ≠ [] ∧ t.txOuts.length = x.outs.length ∧ t.AllDone := by
  have hins := readMany_ins h ho (x.outs.flatMap outBytes ++ W)
  have houts : readMany readOut x.outs.length (x.outs.flatMap outBytes ++ W) = .ok x.outs W := (codecMany codecOut x.outs.length).complete x.outs W ⟨rfl, h.outs⟩
  have ei : (UInt8.ofNat x.ins.length).toNat = x.ins.length := by simp; omega
  have eo : (UInt8.ofNat x.outs.length).toNat = x.outs.length := by simp; omega
  obtain ⟨t1, w1, w2, w3, w4, w5, w6, w7, w8, w9⟩ := Tx.to_witnesses (vb := leBytes 4 x.version) (k := UInt8.ofNat x.ins.length) (o := UInt8.ofNat x.outs.length)
    (by simp) (by rw [ei]; exact hins) (by rw [eo]; exact houts)
  obtain ⟨j, js, k, s, p1, p2, p3, p4⟩ := hW t1.txIns (by rw [w6.length_eq]; simp [Transaction.bare]) (by
    intro i hi
    obtain ⟨n, hn, rfl⟩ := List.getElem_of_mem hi
    have := List.forall₂_iff_get.mp w6
    exact (this.2 n hn (by rw [← this.1]; exact hn)).2.2)
  rw [Tx.readWitnesses_refused w4 w3 w9.symm p1 p2 p3] at w1
  have hst : e.start = { status := .incomplete } := by
    unfold start
    rw [if_pos he]
  have hcs : compactSize x.ins.length = [UInt8.ofNat x.ins.length] := compactSize_small hi
  refine ⟨(({} : Tx).fromStream (.of (leBytes 4 x.version ++ 0 :: 1 :: UInt8.ofNat x.ins.length :: (x.ins.flatMap inBytes ++ (compactSize x.outs.length ++ (x.outs.flatMap outBytes ++ W)))))).1,
    ?_, ?_, ?_, ?_, ?_⟩
  · unfold parsed
    rw [he, if_neg (by simp), hst]
    dsimp only
    rw [List.drop_zero, readMagic_all, hcs]
    simp only [List.cons_append, List.nil_append]
    have hav : ∀ (a : UInt8) (l : Bytes), (PStream.of (leBytes 4 x.version ++ a :: l)).avail = true := fun _ _ => rfl
    rw [if_pos ⟨trivial, trivial, hav _ _⟩]
  · rw [w1]
    unfold Tx.spoils
    dsimp only
    rw [p2, p4]
    simp
  · rw [w1]
    exact List.cons_ne_nil j js
  · rw [w1]
    exact w7.length_eq
  · have hw := (Tx.Sound.null.parse (.of (leBytes 4 x.version ++ 0 :: 1 :: UInt8.ofNat x.ins.length :: (x.ins.flatMap inBytes ++ (compactSize x.outs.length ++ (x.outs.flatMap outBytes ++ W)))))).1.1
    rw [w1] at hw ⊢
    refine ⟨fun i hi => hw.1 i hi ?_, fun o ho => hw.2 o ho (seqDone_none _ _ w7 o ho)⟩
    have := parseWitness_status t1.txIns (.of W) (seqDone_none _ _ w6)
    rw [p1] at this
    exact this i hi

theorem spoils_of {e : ElectrumTx} {s : PStream} {t : Tx} (h : e.parsed s = some t) : e.spoils s = t.spoils := by
  unfold spoils
  rw [h]

theorem large_arr (i : TxIn) (b : UInt8) (s : Bytes) (hi : i.witness = {}) (hb : 0xfd ≤ b) :
    ∃ w : Witness, Tx.parseWitness i (.of (b :: s)) = ({ i with witness := w }, 1, .of s) ∧ w.status = .failed ∧ w.arr = [] := by
  unfold Tx.parseWitness Witness.fromStream
  rw [hi, if_neg (by simp)]
  have h2 : ¬ b < 0xfd := by
    rw [UInt8.lt_iff_toNat_lt]
    rw [UInt8.le_iff_toNat_le] at hb
    omega
  dsimp only
  rw [if_pos ⟨rfl, rfl⟩]
  have h3 : (PStream.of (b :: s)).readByte = (b, .of s) := rfl
  rw [h3]
  dsimp only
  rw [if_neg h2]
  exact ⟨_, rfl, rfl, rfl⟩

theorem large_all : ∀ (ins : List TxIn) (m s : Bytes), (∀ i ∈ ins, i.witness = {}) → m.length = ins.length → (∀ b ∈ m, 0xfd ≤ b) →
    ∃ ins', Tx.parseAll Tx.parseWitness ins (.of (m ++ s)) = (ins', m.length, .of s) ∧ ins'.length = ins.length ∧
      ∀ j ∈ ins', j.witness.status = .failed ∧ j.witness.arr = []
  | [], [], s, _, _, _ => ⟨[], rfl, rfl, by simp⟩
  | [], _ :: _, _, _, h, _ => by simp at h
  | _ :: _, [], _, _, h, _ => by simp at h
  | i :: ins, b :: m, s, hi, hl, hm => by
    obtain ⟨w, e1, e2, e2'⟩ := large_arr i b (m ++ s) (hi i (by simp)) (hm b (by simp))
    obtain ⟨ins', e3, e4, e5⟩ := large_all ins m s (fun j hj => hi j (by simp [hj])) (by simpa using hl) (fun c hc => hm c (by simp [hc]))
    refine ⟨{ i with witness := w } :: ins', ?_, by simp [e4], ?_⟩
    · rw [List.cons_append, Tx.parseAll, e1]
      dsimp only
      rw [e3, List.length_cons, Nat.add_comm]
    · intro j hj
      rcases List.mem_cons.1 hj with rfl | hj
      · exact ⟨e2, e2'⟩
      · exact e5 j hj

theorem probes_five (k : ElectrumKey) (W : Bytes) {n : Nat} (h0 : 0 < n) (h5 : n ≤ 5) : Probes n false (electrumWitness k ++ W) := by
  intro ins hi hw
  obtain ⟨js, p1, p2, p3⟩ := large_all ins (([0xfe, 0xff, 0xff, 0xff, 0xff] : Bytes).take n)
    (([0xfe, 0xff, 0xff, 0xff, 0xff] : Bytes).drop n ++ (leBytes 8 k.amount ++ (k.encoding ++ (k.xpub ++ (leBytes 2 k.change ++ leBytes 2 k.index))) ++ W))
    hw (by simp; omega)
    (fun b hb => (by decide : ∀ b ∈ ([0xfe, 0xff, 0xff, 0xff, 0xff] : Bytes), (0xfd : UInt8) ≤ b) b (List.mem_of_mem_take hb))
  rw [← List.append_assoc, List.take_append_drop] at p1
  cases js with
  | nil => simp at p2; omega
  | cons j js =>
    have p4 : electrumWitness k ++ W = [0xfe, 0xff, 0xff, 0xff, 0xff] ++ (leBytes 8 k.amount ++ (k.encoding ++ (k.xpub ++ (leBytes 2 k.change ++ leBytes 2 k.index))) ++ W) := by
      unfold electrumWitness
      rw [List.append_assoc]
    refine ⟨j, js, _, _, by rw [p4]; exact p1, (p3 j (by simp)).1, fun i hi => by rw [(p3 i hi).1]; simp, ?_⟩
    rw [List.any_eq_false]
    intro i hi
    simp [(p3 i hi).2]

theorem probes_six (k : ElectrumKey) (hk : k.amount % 65536 = 1) (W : Bytes) : Probes 6 true (electrumWitness k ++ W) := by
  intro ins hi hw
  have hsplit : ins = ins.take 5 ++ ins.drop 5 := (List.take_append_drop 5 ins).symm
  obtain ⟨i5, hi5⟩ : ∃ i5, ins.drop 5 = [i5] := by
    rw [← List.length_eq_one_iff, List.length_drop, hi]
  have hb : leBytes 8 k.amount = 1 :: 0 :: leBytes 6 (k.amount / 256 / 256) := by
    rw [leBytes, leBytes]
    congr 1
    · rw [show k.amount % 256 = 1 by omega]; rfl
    · congr 1
      rw [show k.amount / 256 % 256 = 0 by omega]; rfl
  have he : electrumWitness k ++ W = [0xfe, 0xff, 0xff, 0xff, 0xff] ++ (1 :: 0 :: (leBytes 6 (k.amount / 256 / 256) ++ (k.encoding ++ (k.xpub ++
      (leBytes 2 k.change ++ leBytes 2 k.index))) ++ W)) := by
    unfold electrumWitness
    rw [hb]
    simp only [List.append_assoc, List.cons_append]
  obtain ⟨js, p1, p2, p3⟩ := large_all (ins.take 5) [0xfe, 0xff, 0xff, 0xff, 0xff] (1 :: 0 :: (leBytes 6 (k.amount / 256 / 256) ++ (k.encoding ++ (k.xpub ++
      (leBytes 2 k.change ++ leBytes 2 k.index))) ++ W)) (fun i h => hw i (List.mem_of_mem_take h)) (by simp; omega) (by decide)
  have hi5w : i5.witness = {} := hw i5 (List.mem_of_mem_drop (by rw [hi5]; simp))
  obtain ⟨w, w1, w2, w3⟩ : ∃ w : Witness, ({} : Witness).fromStream (.of (1 :: 0 :: (leBytes 6 (k.amount / 256 / 256) ++ (k.encoding ++ (k.xpub ++ (leBytes 2 k.change ++ leBytes 2 k.index))) ++ W))) =
      (w, 2, .of (leBytes 6 (k.amount / 256 / 256) ++ (k.encoding ++ (k.xpub ++ (leBytes 2 k.change ++ leBytes 2 k.index))) ++ W)) ∧ w.status = .done ∧ w.arr = [0] := ⟨_, rfl, rfl, rfl⟩
  have hlast : Tx.parseAll Tx.parseWitness [i5] (.of (1 :: 0 :: (leBytes 6 (k.amount / 256 / 256) ++ (k.encoding ++ (k.xpub ++
      (leBytes 2 k.change ++ leBytes 2 k.index))) ++ W))) = ([{ i5 with witness := w }], 2, .of (leBytes 6 (k.amount / 256 / 256) ++ (k.encoding ++ (k.xpub ++
      (leBytes 2 k.change ++ leBytes 2 k.index))) ++ W)) := by
    unfold Tx.parseAll Tx.parseWitness
    rw [hi5w, w1]
    rfl
  rw [hsplit, hi5, parseAll_append, he, p1, hlast]
  cases js with
  | nil =>
    rw [List.length_take, hi] at p2
    cases p2
  | cons j js =>
    refine ⟨j, js ++ [{ i5 with witness := w }], _, _, rfl, (p3 j (by simp)).1, ?_, ?_⟩
    · intro i hi
      rw [← List.cons_append, List.mem_append, List.mem_singleton] at hi
      rcases hi with hi | rfl
      · rw [(p3 i hi).1]; simp
      · dsimp only
        rw [w2]
        simp
    · rw [← List.cons_append, List.any_append]
      simp [w3]

theorem segwit_parts (x : Transaction) (k : ElectrumKey) (ks : List ElectrumKey) (rest : Bytes) :
    electrumSegwit x (k :: ks) ++ rest = electrumMagic ++ (leBytes 4 x.version ++ ([0x00, 0x01] ++ (compactSize x.ins.length ++ (x.ins.flatMap inBytes ++
        (compactSize x.outs.length ++ (x.outs.flatMap outBytes ++ (electrumWitness k ++ (ks.flatMap electrumWitness ++ (leBytes 4 x.locktime ++ rest))))))))) := by
  unfold electrumSegwit
  simp only [List.append_assoc, List.flatMap_cons]

end ElectrumTx

open ElectrumTx in
/-- C88: segwit documents for one to five inputs do not spoil the object they are parsed into, whatever the data of the inputs is. -/
theorem C88_five {e : ElectrumTx} (he : e.status = .done) {x : Transaction} (h : WireTx x) (h1 : 1 ≤ x.ins.length)
    (h5 : x.ins.length ≤ 5) (ho : x.outs.length < 253) {ks : List ElectrumKey} (h0 : ks ≠ []) (rest : Bytes) :
    e.spoils (.of (electrumSegwit x ks ++ rest)) = false := by
  cases ks with
  | nil => exact absurd rfl h0
  | cons k ks =>
    rw [segwit_parts]
    obtain ⟨t, t1, t2, -⟩ := parsed_segwit he h (by omega) ho (probes_five k (ks.flatMap electrumWitness ++ (leBytes 4 x.locktime ++ rest)) (by omega) h5)
    rw [spoils_of t1]
    exact t2

/-- C88: a call that comes to the end of the transaction does not spoil the object; so legacy documents do not. -/
theorem C88_complete (e : ElectrumTx) (s : PStream) (h : ∀ t, e.parsed s = some t → t.status ≠ .failed) : e.spoils s = false := by
  unfold ElectrumTx.spoils
  cases hp : e.parsed s with
  | none => rfl
  | some t =>
    dsimp only
    unfold Tx.spoils
    rw [decide_eq_false (h t hp)]
    rfl

/-! ### Objects whose scripts have all been read -/

namespace ElectrumTx

theorem readSegwit_allDone {junk : Bytes} {fuel : Nat} {e : ElectrumTx} {br : Nat} {s : PStream} {r : ElectrumTx × Nat × PStream} (hr : e.readSegwit junk fuel br s = some r)
    (h : e.tx.AllDone) : r.1.tx.AllDone := by
  unfold readSegwit at hr
  split at hr
  · dsimp only at hr
    cases hm : readMetas junk fuel (6 + e.tx.length + 2 - 4) e.metas (e.bytesParsed + br) s with
    | none => rw [hm] at hr; cases hr
    | some q =>
      obtain ⟨ms, pos, s'⟩ := q
      rw [hm, Option.bind_eq_bind, Option.bind_some] at hr
      dsimp only at hr
      split at hr <;> (injection hr with hr; rw [← hr]; exact h)
  · injection hr with hr
    rw [← hr]
    exact h

theorem afterTx_allDone {junk : Bytes} {fuel : Nat} {e : ElectrumTx} {br : Nat} {s : PStream} {r : ElectrumTx × Nat × PStream} (hr : e.afterTx junk fuel br s = some r)
    (h : e.tx.AllDone) : r.1.tx.AllDone := by
  unfold afterTx at hr
  split at hr
  · split at hr
    · split at hr
      · refine readSegwit_allDone hr ⟨fun i hi => ?_, h.2⟩
        obtain ⟨j, hj, rfl⟩ := List.mem_map.1 hi
        exact h.1 j hj
      · injection hr with hr
        rw [← hr]
        exact h
    · injection hr with hr
      rw [← hr]
      exact h
  · exact readSegwit_allDone hr h

theorem script_cleared (sc : Script) : (sc.assign {}).status = .done := by
  unfold Script.assign Script.clear
  dsimp only
  rw [if_neg (by decide)]
  split <;> rfl

theorem script_copied (sc : Script) : sc.copy.status = .done := by
  unfold Script.copy
  split <;> rfl

theorem copied_full {v : ElectrumTx} (h : v.Full) (sw : Bool) : (v.copied sw).Full := by
  refine ⟨h.1, ?_, fun i hi => ?_, fun o ho => ?_⟩
  · show v.tx.copy.txIns.length ≤ (v.metas.take v.tx.txIns.length).length
    rw [List.length_take, (Tx.copy_counts _).1]
    exact le_min (Nat.le_refl _) h.2.1
  · obtain ⟨j, -, rfl⟩ := List.mem_map.1 hi
    exact script_copied _
  · obtain ⟨j, -, rfl⟩ := List.mem_map.1 ho
    exact script_copied _

theorem legacyMetas_done (junk : Bytes) : ∀ (is : List TxIn) {r : List TxIn × List ElectrumMeta × Bool}, legacyMetas junk is = .ok r →
    (∀ i ∈ is, i.scriptSig.status = .done) → ∀ i ∈ r.1, i.scriptSig.status = .done := by
  intro is
  induction is with
  | nil =>
    intro r hr _
    injection hr with hr
    rw [← hr]
    simp
  | cons i is ih =>
    intro r hr h
    rw [legacyMetas] at hr
    obtain ⟨q, hq, hr⟩ := C.ok_inv hr
    cases q with
    | none =>
      injection hr with hr
      rw [← hr]
      exact h
    | some q =>
      obtain ⟨l, hl, hr⟩ := C.ok_inv hr
      injection hr with hr
      rw [← hr]
      intro j hj
      rcases List.mem_cons.1 hj with rfl | hj
      · unfold legacyMeta at hq
        split at hq
        · cases hq
        · obtain ⟨a, -, hq⟩ := C.ok_inv hq
          dsimp only at hq
          split at hq
          · cases hq
          · split at hq
            · cases hq
            · injection hq with hq
              injection hq with hq
              rw [← hq]
              exact script_cleared _
      · exact ih hl (fun i hi => h i (by simp [hi])) j hj

theorem readTx_allDone {junk : Bytes} {fuel : Nat} {e : ElectrumTx} {br : Nat} {s : PStream} {r : ElectrumTx × Nat × PStream} (hr : e.readTx junk fuel br s = some r)
    (h : e.tx.AllDone) (ht : e.isSegwit = false → s.avail = true → (e.tx.fromStream s).1.AllDone) : r.1.tx.AllDone := by
  unfold readTx at hr
  split at hr
  · rename_i hc
    have ht := ht hc.1 hc.2.1
    generalize e.tx.fromStream s = q at *
    obtain ⟨t, n, s'⟩ := q
    dsimp only at hr ht
    split at hr
    · injection hr with hr
      rw [← hr]
      exact ht
    · split at hr
      · cases hl : legacyMetas junk t.txIns with
        | ub =>
          rw [hl] at hr
          injection hr with hr
          rw [← hr]
          exact ht
        | ok l =>
          have := legacyMetas_done junk _ hl ht.1
          obtain ⟨ins, ms, ok⟩ := l
          rw [hl] at hr
          dsimp only at hr this
          split at hr
          · exact afterTx_allDone hr ⟨this, ht.2⟩
          · injection hr with hr
            rw [← hr]
            exact ⟨this, ht.2⟩
      · exact afterTx_allDone hr ht
  · exact afterTx_allDone hr h

theorem fromStream_allDone {junk : Bytes} {fuel : Nat} {e : ElectrumTx} {s : PStream} {r : ElectrumTx × Nat × PStream} (hr : e.fromStream junk fuel s = some r)
    (h : e.tx.AllDone) (ht : ∀ t, e.parsed s = some t → t.AllDone) : r.1.tx.AllDone := by
  unfold fromStream at hr
  split at hr
  · injection hr with hr
    rw [← hr]
    exact h
  · rename_i hc
    have hs : e.start.tx.AllDone := by
      unfold start
      split
      · exact ⟨(fun i hi => by cases hi), fun o ho => by cases ho⟩
      · exact h
    dsimp only at hr
    split at hr
    · rename_i hm
      refine readTx_allDone hr hs fun h1 h2 => ht _ ?_
      unfold parsed
      rw [if_neg hc]
      dsimp only
      rw [if_pos ⟨hm, h1, h2⟩]
    · injection hr with hr
      rw [← hr]
      exact hs

end ElectrumTx

theorem eonce_allowed {junk : Bytes} {fuel : Nat} {s : PStream} {e' : ElectrumTx} {n : Nat} {s' : PStream}
    (h : ({} : ElectrumTx).fromStream junk fuel s = some (e', n, s')) (hd : e'.status ≠ .ub) :
    EAllAllowed [.new 0, .parse 0 junk fuel s] (fun _ => none) ∧
      EVals.run [.new 0, .parse 0 junk fuel s] (fun _ => none) = fun y => if y = 0 then some (e', ElectrumTx.spoils {} s) else none := by
  have e0 : EVals.step (fun _ => none) (.new 0) 0 = some (({}, false) : ElectrumTx × Bool) := rfl
  have e1 : EVals.step (EVals.step (fun _ => none) (.new 0)) (.parse 0 junk fuel s) = EVals.put (EVals.step (fun _ => none) (.new 0)) 0 (some (e', ElectrumTx.spoils {} s)) := by
    generalize EVals.step (fun _ => none) (.new 0) = w at e0 ⊢
    rw [EVals.step, e0]
    dsimp only
    rw [h]
    rfl
  refine ⟨⟨trivial, ?_, trivial⟩, ?_⟩
  · intro v hv
    rw [e0] at hv
    injection hv with hv
    rw [← hv]
    exact ⟨⟨_, h, hd⟩, fun _ => rfl⟩
  · show EVals.step (EVals.step (fun _ => none) (.new 0)) (.parse 0 junk fuel s) = _
    rw [e1]
    funext y
    show (if y = 0 then _ else _) = _
    by_cases hy : y = 0
    · rw [if_pos hy, if_pos hy]
    · rw [if_neg hy, if_neg hy]
      exact if_neg hy

/-- C88: `ElectrumTx tx; tx.parse(document);` for a segwit document with one to five inputs, and the end of the scope: no memory error. -/
theorem C88_once (denies : Nat → Nat → Bool) (g : (EWorld.init denies).heap.Generous) (junk : Bytes) (fuel : Nat) {x : Transaction} (h : WireTx x)
    (h1 : 1 ≤ x.ins.length) (h5 : x.ins.length ≤ 5) (ho : x.outs.length < 253) {ks : List ElectrumKey} (hk : ∀ k ∈ ks, k.Ok ∧ k.Good)
    (hl : ks.length = x.ins.length) (rest : Bytes) :
    ∃ W outs, ∃ L : Finset Nat, (EWorld.init denies).run [.new 0, .parse 0 junk (fuel + 2) (.of (electrumSegwit x ks ++ rest)), .destroy 0] = .ok (W, outs) ∧
      L.card ≤ 3 + (if x.outs = [] then 1 else 0) ∧ ∀ q, W.heap.blocks q ≠ none ↔ q ∈ L := by
  obtain ⟨e', e1, e2, -⟩ := C72_parse_segwit junk fuel (e := {}) rfl h h1 h5 ho hk hl rest
  have hk0 : ks ≠ [] := by rintro rfl; simp at hl; omega
  have hn := C88_five (e := {}) rfl h h1 h5 ho hk0 rest
  have hz : ElectrumTx.parseLoss {} (.of (electrumSegwit x ks ++ rest)) ≤ 3 + (if x.outs = [] then 1 else 0) := by
    cases ks with
    | nil => exact absurd rfl hk0
    | cons k ks =>
      rw [ElectrumTx.segwit_parts]
      obtain ⟨t, t1, -, t2, t3, -⟩ := ElectrumTx.parsed_segwit (e := {}) rfl h (by omega) ho
        (ElectrumTx.probes_five k (ks.flatMap electrumWitness ++ (leBytes 4 x.locktime ++ rest)) (n := x.ins.length) (by omega) h5)
      unfold ElectrumTx.parseLoss
      rw [t1]
      dsimp only
      unfold Tx.zeroCounts ElectrumTx.dropLoss
      rw [if_pos rfl, if_pos rfl, if_neg fun c => t2 c.1]
      by_cases hx : x.outs = []
      · rw [if_pos hx]
        split <;> decide
      · rw [if_neg hx, if_neg fun c => hx (List.length_eq_zero_iff.1 (by rw [← t3, c.1]; rfl))]
  generalize hs : PStream.of (electrumSegwit x ks ++ rest) = s at e1 hn hz ⊢
  obtain ⟨a1, a2⟩ := eonce_allowed e1 (by rw [e2]; simp)
  rw [hn] at a2
  have a3 : EAllAllowed ([.new 0, .parse 0 junk (fuel + 2) s] ++ [.destroy 0]) fun _ => none := by
    refine eallAllowed_append.2 ⟨a1, ⟨fun v hv => ?_, trivial⟩⟩
    rw [a2] at hv
    injection hv with hv
    rw [← hv]
  obtain ⟨W, outs, L, k1, k2, k3⟩ := C88_rest denies g _ a3 (fun y => by
    rw [EVals.run_append, a2]
    show EVals.step (fun y => if y = 0 then some (e', false) else none) (.destroy 0) y = none
    rw [EVals.step, if_pos rfl]
    dsimp only
    by_cases hy : y = 0
    · rw [hy]; exact EVals.put_eq _ _ _
    · exact (EVals.put_ne _ hy _).trans (if_neg hy))
  refine ⟨W, outs, L, k1, Nat.le_trans k2 ?_, k3⟩
  show 0 + (ElectrumTx.parseLoss {} s + (0 + 0)) ≤ _
  omega

open ElectrumTx in
/-- C88: a segwit document with one to five inputs is parsed, the object is copied, and the original is destroyed: the copy holds the
document. -/
theorem C88_document (denies : Nat → Nat → Bool) (g : (EWorld.init denies).heap.Generous) (junk : Bytes) (fuel : Nat) {x : Transaction} (h : WireTx x)
    (h1 : 1 ≤ x.ins.length) (h5 : x.ins.length ≤ 5) (ho : x.outs.length < 253) {ks : List ElectrumKey} (hk : ∀ k ∈ ks, k.Ok ∧ k.Good)
    (hl : ks.length = x.ins.length) (rest : Bytes) :
    ∃ W outs e', (EWorld.init denies).run [.new 0, .parse 0 junk (fuel + 2) (.of (electrumSegwit x ks ++ rest)), .copy 1 0, .destroy 0] = .ok (W, outs) ∧
      W.objs 0 = none ∧ W.view 1 = .ok e' ∧ e'.status = .done ∧ e'.tx.Holds x.bare ∧ List.Forall₂ (fun m k => m.Says k (some k.amount)) e'.metas ks := by
  obtain ⟨e', e1, e2, e3, e4, e5⟩ := C72_parse_segwit junk fuel (e := {}) rfl h h1 h5 ho hk hl rest
  have hk0 : ks ≠ [] := by rintro rfl; simp at hl; omega
  have hn := C88_five (e := {}) rfl h h1 h5 ho hk0 rest
  have hd : e'.tx.AllDone := by
    refine fromStream_allDone e1 ⟨(fun i hi => by cases hi), fun o ho => by cases ho⟩ fun t ht => ?_
    cases ks with
    | nil => exact absurd rfl hk0
    | cons k ks =>
      rw [segwit_parts] at ht
      obtain ⟨t', t1, -, -, -, t2⟩ := parsed_segwit (e := {}) rfl h (by omega) ho
        (probes_five k (ks.flatMap electrumWitness ++ (leBytes 4 x.locktime ++ rest)) (n := x.ins.length) (by omega) h5)
      rw [t1] at ht
      injection ht with ht
      rw [← ht]
      exact t2
  have hm : e'.tx.txIns.length = e'.metas.length := by
    rw [e5.length_eq, hl, e4.ins.length_eq]
    simp [Transaction.bare]
  have hf : e'.Full := ⟨by rw [e2]; simp, by omega, hd.1, hd.2⟩
  have hc := copy_full hf
  generalize hs : PStream.of (electrumSegwit x ks ++ rest) = s at e1 hn ⊢
  obtain ⟨a1, a2⟩ := eonce_allowed e1 (by rw [e2]; simp)
  rw [hn] at a2
  have b1 : EVals.step (fun y => if y = 0 then some (e', false) else none) (.copy 1 0) =
      EVals.put (fun y => if y = 0 then some (e', false) else none) 1 (some (e'.copied false, false)) := by
    rw [EVals.step, if_neg (by decide), if_pos rfl]
    dsimp only
    rw [hc]
  have b2 : EVals.step (EVals.put (fun y => if y = 0 then some (e', false) else none) 1 (some (e'.copied false, false))) (.destroy 0) =
      EVals.put (EVals.put (fun y => if y = 0 then some (e', false) else none) 1 (some (e'.copied false, false))) 0 none := by
    rw [EVals.step, EVals.put_ne _ (by decide), if_pos rfl]
  have a3 : EAllAllowed ([.new 0, .parse 0 junk (fuel + 2) s] ++ [.copy 1 0, .destroy 0]) fun _ => none := by
    refine eallAllowed_append.2 ⟨a1, ?_, ?_, trivial⟩
    · rw [a2]
      intro v hv
      have hv : some (e', false) = some v := hv
      injection hv with hv
      rw [← hv]
      exact hf
    · rw [a2, b1]
      intro v hv
      rw [EVals.put_ne _ (by decide), if_pos rfl] at hv
      injection hv with hv
      rw [← hv]
  have b3 : EVals.run ([.new 0, .parse 0 junk (fuel + 2) s] ++ [.copy 1 0, .destroy 0]) (fun _ => none) =
      EVals.put (EVals.put (fun y => if y = 0 then some (e', false) else none) 1 (some (e'.copied false, false))) 0 none := by
    rw [EVals.run_append, a2, ← b2, ← b1]
    rfl
  obtain ⟨W, w1, w2⟩ := C88_values denies g _ a3
  rw [b3] at w2
  have ht : e'.metas.take e'.tx.txIns.length = e'.metas := by rw [hm, List.take_length]
  refine ⟨W, _, viewElectrum (e'.copied false), w1, (w2 0).1 (EVals.put_eq _ _ _), (w2 1).2 (e'.copied false, false) ?_ (copied_full hf false), e2, C21_copy _ _ e4, ?_⟩
  · rw [EVals.put_ne _ (by decide)]
    exact EVals.put_eq _ _ _
  · show List.Forall₂ _ (e'.metas.take e'.tx.txIns.length) ks
    rw [ht]
    exact e5

open ElectrumTx in
/-- C88 is false for documents with six inputs, if the first amount ends in the bytes 1, 0 (as in `C72_six_inputs`): the call ends with DONE, and the end of
the lifetime of the object gives back memory that has been given back already. -/
theorem C88_six_inputs (denies : Nat → Nat → Bool) (g : (EWorld.init denies).heap.Generous) (junk : Bytes) (fuel : Nat) {x : Transaction} (h : WireTx x)
    (h6 : x.ins.length = 6) (ho : x.outs.length < 253) {k : ElectrumKey} {ks : List ElectrumKey} (hk : ∀ a ∈ k :: ks, a.Ok ∧ a.Good)
    (hl : (k :: ks).length = x.ins.length) (ha : k.amount % 65536 = 1) (rest : Bytes) :
    (∃ W outs o, (EWorld.init denies).run [.new 0, .parse 0 junk (fuel + 2) (.of (electrumSegwit x (k :: ks) ++ rest))] = .ok (W, outs) ∧ W.objs 0 = some o ∧ o.status = .done) ∧
      (EWorld.init denies).run [.new 0, .parse 0 junk (fuel + 2) (.of (electrumSegwit x (k :: ks) ++ rest)), .destroy 0] = .ub := by
  obtain ⟨e', e1, e2, -⟩ := C72_six_inputs junk fuel (e := {}) rfl h h6 ho hk hl ha rest
  have hn : ElectrumTx.spoils {} (.of (electrumSegwit x (k :: ks) ++ rest)) = true := by
    rw [segwit_parts]
    obtain ⟨t, t1, t2, -⟩ := parsed_segwit (e := {}) rfl h (by omega) ho (W := electrumWitness k ++ (ks.flatMap electrumWitness ++ (leBytes 4 x.locktime ++ rest)))
      (by rw [h6]; exact probes_six k ha _)
    rw [spoils_of t1]
    exact t2
  generalize hs : PStream.of (electrumSegwit x (k :: ks) ++ rest) = s at e1 hn ⊢
  obtain ⟨a1, a2⟩ := eonce_allowed e1 (by rw [e2]; simp)
  rw [hn] at a2
  obtain ⟨W, ow, L, k1, I, -⟩ := estart_ok denies g _ a1
  have hv : EVals.run [.new 0, .parse 0 junk (fuel + 2) s] (fun _ => none) 0 = some (e', true) := by rw [a2]; rfl
  refine ⟨?_, (C88_spoiled denies g _ a1 0 e' hv).1⟩
  rcases I.cases 0 with ⟨-, e, -⟩ | ⟨o, u, f1, f2, a⟩
  · rw [hv] at e; cases e
  rw [hv] at f2
  injection f2 with f2
  subst f2
  refine ⟨W, _, o, k1, f1, ?_⟩
  obtain ⟨u, a, -⟩ := a
  obtain ⟨⟨e, -⟩, -⟩ := fact_star.1 a
  rw [e]
  exact e2

/-! ### Examples -/

instance (e : ElectrumTx) : Decidable e.Full := by
  unfold ElectrumTx.Full
  exact inferInstance

/-- Checks `EAllowed`. -/
def echeckOp (vs : EVals) : EOp → Bool
  | .new _ => true
  | .copy _ y => (vs y).all fun v => v.1.Full
  | .assign x y => x = y ∨ ((vs y).all (fun v => v.1.Full) ∧ (vs x).all fun w => w.2 = false)
  | .parse x junk fuel s => (vs x).all fun v => (v.1.fromStream junk fuel s).any (fun r => r.1.status ≠ .ub) ∧ (v.1.status = .done → v.2 = false)
  | .destroy x => (vs x).all fun v => v.2 = false

def echeck : List EOp → EVals → Bool
  | [], _ => true
  | op :: ops, vs => echeckOp vs op && echeck ops (vs.step op)

theorem echeck_sound : ∀ {ops : List EOp} {vs : EVals}, echeck ops vs = true → EAllAllowed ops vs := by
  intro ops
  induction ops with
  | nil => intro vs _; trivial
  | cons op ops ih =>
    intro vs h
    rw [echeck, Bool.and_eq_true] at h
    refine ⟨?_, ih h.2⟩
    have all : ∀ {o : Option (ElectrumTx × Bool)} {P : ElectrumTx × Bool → Bool}, o.all P = true → ∀ v, o = some v → P v = true := by
      intro o P h v hv
      rw [hv] at h
      exact h
    cases op with
    | new x => trivial
    | copy x y => exact fun v hv => of_decide_eq_true (all h.1 v hv)
    | assign x y =>
      intro hxy
      have := (of_decide_eq_true h.1).resolve_left hxy
      exact ⟨fun v hv => of_decide_eq_true (all this.1 v hv), fun v hv => of_decide_eq_true (all this.2 v hv)⟩
    | parse x junk fuel s =>
      intro v hv
      obtain ⟨h1, h2⟩ := of_decide_eq_true (all h.1 v hv)
      refine ⟨?_, h2⟩
      cases hr : v.1.fromStream junk fuel s with
      | none => rw [hr] at h1; cases h1
      | some r =>
        rw [hr] at h1
        exact ⟨r, rfl, of_decide_eq_true h1⟩
    | destroy x => exact fun v hv => of_decide_eq_true (all h.1 v hv)

/-- The beginning of a segwit document with one input and one output, up to the fourth byte of the amount. -/
def exElectrumPart : Bytes := [0x45, 0x50, 0x54, 0x46, 0xff, 0x00, 2, 0, 0, 0, 0, 1, 1] ++ zeros 32 ++
  [7, 0, 0, 0, 0, 0xfd, 0xff, 0xff, 0xff, 1, 0xe8, 3, 0, 0, 0, 0, 0, 0, 1, 0x51, 0xfe, 0xff, 0xff, 0xff, 0xff, 1, 2, 3, 4]

/-- A legacy document with one input whose script does not hold a key. -/
def exElectrumBad : Bytes := [0x45, 0x50, 0x54, 0x46, 0xff, 0x00, 2, 0, 0, 0, 1] ++ zeros 32 ++
  [7, 0, 0, 0, 1, 0x52, 0xfd, 0xff, 0xff, 0xff, 1, 0xe8, 3, 0, 0, 0, 0, 0, 0, 1, 0x51, 0, 0, 0, 0]

/-- A program that parses the one in pieces and the other at once, copies and assigns the second, and ends. -/
def exElectrumProgram : List EOp :=
  [.new 0, .parse 0 [] 2 (.of (exElectrumPart.take 40)), .parse 0 [] 2 (.of (exElectrumPart.drop 40)), .new 1, .parse 1 [] 2 (.of exElectrumBad), .copy 2 1,
    .new 3, .assign 3 1, .destroy 1, .assign 0 2, .destroy 0, .destroy 2, .destroy 3]

theorem exElectrumProgram_ok : EAllAllowed exElectrumProgram fun _ => none := echeck_sound (by decide +kernel)

/-- The calls say incomplete, incomplete, failed. -/
example : (EVals.outs exElectrumProgram fun _ => none).filterMap (·.map (·.status)) = [.incomplete, .incomplete, .failed] := by decide +kernel

/-- C88_values, C88_apart: the copy is what was read, after the original is gone. -/
example : ∃ W outs, (EWorld.init exDenies).run (exElectrumProgram.take 9) = .ok (W, outs) ∧ ∃ t, W.view 2 = .ok t ∧
    t.tx.txIns.map (·.outputIndex) = [7] ∧ t.tx.txOuts.map (·.scriptPubkey.bytes) = [[0x51]] ∧ t.metas.length = 1 := by
  obtain ⟨W, h1, h2⟩ := C88_values _ exGenerous (exElectrumProgram.take 9) (echeck_sound (by decide +kernel))
  refine ⟨W, _, h1, ?_⟩
  have some_of : ∀ {o : Option (ElectrumTx × Bool)} {P : ElectrumTx × Bool → Prop} [DecidablePred P], o.any (fun v => decide (P v)) = true → ∃ v, o = some v ∧ P v := by
    intro o P _ h
    cases o with
    | none => cases h
    | some v => exact ⟨v, rfl, of_decide_eq_true h⟩
  obtain ⟨v, f, g, k⟩ := some_of (o := EVals.run (exElectrumProgram.take 9) (fun _ => none) 2) (P := fun v => v.1.Full ∧
      ((viewElectrum v.1).tx.txIns.map (·.outputIndex) = [7] ∧ (viewElectrum v.1).tx.txOuts.map (·.scriptPubkey.bytes) = [[0x51]] ∧
        (viewElectrum v.1).metas.length = 1)) (by decide +kernel)
  exact ⟨_, (h2 2).2 v f g, k⟩

/-- C88_losses, C88_rest: at the end of the program the variables are gone. -/
example : ∃ W outs, ∃ L : Finset Nat, (EWorld.init exDenies).run exElectrumProgram = .ok (W, outs) ∧ L.card ≤ 7 ∧ ∀ q, W.heap.blocks q ≠ none ↔ q ∈ L := by
  obtain ⟨W, outs, L, h1, h2, h3⟩ := C88_rest _ exGenerous _ exElectrumProgram_ok (fun x => by
    rcases Nat.lt_or_ge x 4 with h | h
    · have : x = 0 ∨ x = 1 ∨ x = 2 ∨ x = 3 := by omega
      rcases this with rfl | rfl | rfl | rfl <;> exact Option.isNone_iff_eq_none.1 (by decide +kernel)
    · rw [EVals.run_ne]
      intro op ho
      simp only [exElectrumProgram, List.mem_cons, List.not_mem_nil, or_false] at ho
      rcases ho with rfl | rfl | rfl | rfl | rfl | rfl | rfl | rfl | rfl | rfl | rfl | rfl | rfl <;> simp only [etarget] <;> omega)
  refine ⟨W, outs, L, h1, Nat.le_trans h2 ?_, h3⟩
  decide +kernel

/-- C88_complete: the legacy document. -/
example : ElectrumTx.spoils {} (.of exElectrumBad) = false := C88_complete _ _ (fun t ht => by
  have : (ElectrumTx.parsed {} (.of exElectrumBad)).all (fun t => decide (t.status ≠ .failed)) = true := by decide +kernel
  rw [ht] at this
  exact of_decide_eq_true this)

/-- C88_once, C88_document: the document of `C72_document`. -/
example (junk rest : Bytes) : ∃ W outs e', (EWorld.init exDenies).run [.new 0, .parse 0 junk 2 (.of (electrumSegwit exPsbtTx [exElectrumKey 5000000000] ++ rest)), .copy 1 0, .destroy 0] =
    .ok (W, outs) ∧ W.objs 0 = none ∧ W.view 1 = .ok e' ∧ e'.status = .done ∧ e'.tx.Holds exPsbtTx.bare ∧
      List.Forall₂ (fun m k => m.Says k (some k.amount)) e'.metas [exElectrumKey 5000000000] :=
  C88_document _ exGenerous junk 0 exPsbtTx_wire (by decide) (by decide) (by decide) (exElectrumKeys (by decide)) rfl rest

example (junk rest : Bytes) : ∃ W outs, ∃ L : Finset Nat, (EWorld.init exDenies).run [.new 0, .parse 0 junk 2 (.of (electrumSegwit exPsbtTx [exElectrumKey 5000000000] ++ rest)), .destroy 0] =
    .ok (W, outs) ∧ L.card ≤ 3 ∧ ∀ q, W.heap.blocks q ≠ none ↔ q ∈ L :=
  C88_once _ exGenerous junk 0 exPsbtTx_wire (by decide) (by decide) (by decide) (exElectrumKeys (by decide)) rfl rest

/-- C88_six_inputs, C88_spoiled: six inputs with 65537 satoshi each. -/
example (junk rest : Bytes) :
    (EWorld.init exDenies).run [.new 0, .parse 0 junk 2 (.of (electrumSegwit exSix (List.replicate 6 (exElectrumKey 65537)) ++ rest)), .destroy 0] = .ub := by
  have hm := exElectrumKey_means (a := 65537) (by decide)
  exact (C88_six_inputs _ exGenerous junk 0 exSix_wire rfl (by decide) (k := exElectrumKey 65537) (ks := List.replicate 5 (exElectrumKey 65537)) (by
      intro k hk
      rw [← List.replicate_succ] at hk
      rw [(List.mem_replicate.mp hk).2]
      exact ⟨hm.ok, hm.good⟩) rfl rfl rest).2

end UB
