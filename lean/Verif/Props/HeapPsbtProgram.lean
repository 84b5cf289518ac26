import Verif.Lemmas.HeapPsbtProgram
import Verif.Props.HeapTxParseProgram
import Verif.Props.PSBTLife

/-! # C87: PSBT objects on a heap

Programs that construct, copy, assign, parse into and destroy PSBT objects, with any number of variables and statements, on a heap where
using memory that is not owned is an error. -/

namespace UB
open Heap Spec

theorem brun_ok : ∀ (ops : List BOp) {W : BWorld} {vs : BVals} {ow : Nat → Finset Nat} {L : Finset Nat} (_ : BMem W vs ow L) (_ : W.heap.Generous)
    (_ : BAllAllowed ops vs),
    ∃ W' ow' L', W.run ops = .ok (W', vs.outs ops) ∧ BMem W' (vs.run ops) ow' L' ∧ W'.heap.denies = W.heap.denies ∧
      L ⊆ L' ∧ L'.card ≤ L.card + ballLosses ops vs := by
  intro ops
  induction ops with
  | nil => intro W vs ow L I _ _; exact ⟨W, ow, L, rfl, I, rfl, fun _ h => h, Nat.le_refl _⟩
  | cons op ops ih =>
    intro W vs ow L I g ha
    obtain ⟨ok, ha'⟩ := ha
    obtain ⟨W1, ow1, E, hs, I1, dj, hd1, hE⟩ := bstep_ok I g op ok
    have g1 : W1.heap.Generous := by
      unfold Heap.Generous
      rw [hd1]
      exact g
    obtain ⟨W', ow', L', hr, I', hd, hsub, hn⟩ := ih I1 g1 ha'
    refine ⟨W', ow', L', ?_, I', hd.trans hd1, fun q hq => hsub (Finset.mem_union_left _ hq), ?_⟩
    · rw [BWorld.run, hs, C.bind_ok]
      dsimp only
      rw [hr, C.bind_ok]
      rfl
    · rw [Finset.card_union_of_disjoint dj] at hn
      rw [ballLosses]
      omega

theorem BVals.run_append : ∀ (ops1 ops2 : List BOp) (vs : BVals), BVals.run (ops1 ++ ops2) vs = BVals.run ops2 (BVals.run ops1 vs) := by
  intro ops1
  induction ops1 with
  | nil => intro ops2 vs; rfl
  | cons op ops1 ih => intro ops2 vs; exact ih ops2 _

theorem ballAllowed_append : ∀ {ops1 ops2 : List BOp} {vs : BVals}, BAllAllowed (ops1 ++ ops2) vs ↔ BAllAllowed ops1 vs ∧ BAllAllowed ops2 (BVals.run ops1 vs) := by
  intro ops1
  induction ops1 with
  | nil => intro ops2 vs; exact ⟨fun h => ⟨trivial, h⟩, fun h => h.2⟩
  | cons op ops1 ih =>
    intro ops2 vs
    constructor
    · rintro ⟨h1, h2⟩
      obtain ⟨h3, h4⟩ := ih.1 h2
      exact ⟨⟨h1, h3⟩, h4⟩
    · rintro ⟨⟨h1, h2⟩, h3⟩
      exact ⟨h1, ih.2 ⟨h2, h3⟩⟩

theorem BVals.put_eq (vs : BVals) (x : Nat) (v : Option PSBT) : vs.put x v x = v := if_pos rfl

theorem BVals.put_ne (vs : BVals) {x y : Nat} (h : y ≠ x) (v : Option PSBT) : vs.put x v y = vs y := if_neg h

theorem BVals.step_ne {vs : BVals} {op : BOp} {y : Nat} (h : y ≠ target op) : vs.step op y = vs y := by
  have P := fun v => BVals.put_ne vs h v
  cases op with
  | new x =>
    cases hx : vs x with
    | none => simp only [BVals.step, hx]; exact P _
    | some v => simp only [BVals.step, hx]
  | copy x z =>
    cases hx : vs x with
    | some v => simp only [BVals.step, hx]
    | none => cases hz : vs z with
      | none => simp only [BVals.step, hx, hz]
      | some v => cases hc : v.copy with
        | ub => simp only [BVals.step, hx, hz, hc]
        | ok u => simp only [BVals.step, hx, hz, hc]; exact P _
  | assign x z =>
    by_cases e : x = z
    · rw [BVals.step, if_pos e]
    · cases hx : vs x with
      | none => simp only [BVals.step, hx, if_neg e]
      | some w => cases hz : vs z with
        | none => simp only [BVals.step, hx, hz, if_neg e]
        | some v => cases hc : w.assign v with
          | ub => simp only [BVals.step, hx, hz, hc, if_neg e]
          | ok u => simp only [BVals.step, hx, hz, hc, if_neg e]; exact P _
  | parse x junk s =>
    cases hx : vs x with
    | none => simp only [BVals.step, hx]
    | some v => simp only [BVals.step, hx]; exact P _
  | destroy x =>
    cases hx : vs x with
    | none => simp only [BVals.step, hx]
    | some v => simp only [BVals.step, hx]; exact P _

theorem BVals.run_ne : ∀ (ops : List BOp) {vs : BVals} {y : Nat}, (∀ op ∈ ops, target op ≠ y) → BVals.run ops vs y = vs y := by
  intro ops
  induction ops with
  | nil => intro vs y _; rfl
  | cons op ops ih =>
    intro vs y h
    rw [BVals.run, ih fun o ho => h o (List.mem_cons_of_mem _ ho)]
    exact BVals.step_ne (Ne.symm (h op List.mem_cons_self))

theorem BWorld.run_append : ∀ (ops1 ops2 : List BOp) (W : BWorld), W.run (ops1 ++ ops2) = (do
    let (W, r1) ← W.run ops1
    let (W, r2) ← W.run ops2
    return (W, r1 ++ r2)) := by
  intro ops1
  induction ops1 with
  | nil =>
    intro ops2 W
    rw [List.nil_append, BWorld.run, C.bind_ok]
    dsimp only
    cases BWorld.run ops2 W with
    | ub => rfl
    | ok a => rfl
  | cons op ops1 ih =>
    intro ops2 W
    rw [List.cons_append, BWorld.run, BWorld.run]
    cases W.step op with
    | ub => rfl
    | ok a =>
      obtain ⟨W1, r⟩ := a
      rw [C.bind_ok, C.bind_ok]
      dsimp only
      rw [ih]
      cases BWorld.run ops1 W1 with
      | ub => rfl
      | ok b =>
        rw [C.bind_ok, C.bind_ok, C.pure_eq, C.bind_ok]
        dsimp only
        cases BWorld.run ops2 b.1 with
        | ub => rfl
        | ok c => rfl

/-- A program of allowed statements, from the start. -/
theorem bstart_ok (denies : Nat → Nat → Bool) (g : (BWorld.init denies).heap.Generous) (ops : List BOp) (ha : BAllAllowed ops fun _ => none) :
    ∃ W ow L, (BWorld.init denies).run ops = .ok (W, BVals.outs ops fun _ => none) ∧ BMem W (BVals.run ops fun _ => none) ow L ∧
      W.heap.Generous ∧ L.card ≤ ballLosses ops fun _ => none := by
  obtain ⟨W, ow, L, h1, h2, h3, -, h4⟩ := brun_ok ops (BMem.init denies) g ha
  exact ⟨W, ow, L, h1, h2, by unfold Heap.Generous; rw [h3]; exact g, by simpa using h4⟩

/-- C87: every program of allowed statements, in which any bytes may have been parsed in any pieces, runs without memory error. Every
call of `parse` returns, leaves in the stream and reports what it does where variables are values; and what can be read from a
complete variable at the end is what it holds there. -/
theorem C87_values (denies : Nat → Nat → Bool) (g : (BWorld.init denies).heap.Generous) (ops : List BOp) (ha : BAllAllowed ops fun _ => none) :
    ∃ W, (BWorld.init denies).run ops = .ok (W, BVals.outs ops fun _ => none) ∧ ∀ x,
      (BVals.run ops (fun _ => none) x = none → W.objs x = none) ∧
        ∀ v, BVals.run ops (fun _ => none) x = some v → v.status = .done → W.view x = .ok (viewPsbt v) := by
  obtain ⟨W, ow, L, h1, I, -⟩ := bstart_ok denies g ops ha
  refine ⟨W, h1, fun x => ⟨fun h => ?_, fun v h hs => I.view h hs⟩⟩
  rcases I.cases x with ⟨e, -⟩ | ⟨o, v, -, e, -⟩
  · exact e
  · rw [h] at e; cases e

/-- C87: nothing that happens to other variables changes what can be read from a variable: a copy shares no memory with its original. -/
theorem C87_apart (denies : Nat → Nat → Bool) (g : (BWorld.init denies).heap.Generous) (ops1 ops2 : List BOp)
    (ha : BAllAllowed (ops1 ++ ops2) fun _ => none) (x : Nat) (hx : ∀ op ∈ ops2, target op ≠ x) (v : PSBT)
    (hv : BVals.run ops1 (fun _ => none) x = some v) (hs : v.status = .done) :
    ∃ W1 outs1 W outs, (BWorld.init denies).run ops1 = .ok (W1, outs1) ∧ (BWorld.init denies).run (ops1 ++ ops2) = .ok (W, outs) ∧
      W.view x = W1.view x ∧ W1.view x = .ok (viewPsbt v) := by
  obtain ⟨W, ow, L, h1, I, -⟩ := bstart_ok denies g _ ha
  obtain ⟨W1, ow1, L1, h2, I1, -⟩ := bstart_ok denies g _ (ballAllowed_append.1 ha).1
  have e1 := I1.view hv hs
  have hv2 : BVals.run (ops1 ++ ops2) (fun _ => none) x = some v := by
    rw [BVals.run_append, BVals.run_ne ops2 hx, hv]
  have e2 := I.view hv2 hs
  exact ⟨W1, _, W, _, h2, h1, e2.trans e1.symm, e1⟩

/-- C87: the memory in use at the end of a program: the blocks of its variables, each with one owner, and blocks nobody can give back any
more, of which `ballLosses` says how many there may be. -/
theorem C87_losses (denies : Nat → Nat → Bool) (g : (BWorld.init denies).heap.Generous) (ops : List BOp) (ha : BAllAllowed ops fun _ => none) :
    ∃ W outs, ∃ L : Finset Nat, ∃ ow : Nat → Finset Nat, (BWorld.init denies).run ops = .ok (W, outs) ∧ L.card ≤ ballLosses ops (fun _ => none) ∧
      (∀ q, W.heap.blocks q ≠ none ↔ (∃ x, q ∈ ow x) ∨ q ∈ L) ∧ (∀ x y, x ≠ y → Disjoint (ow x) (ow y)) ∧ (∀ x, Disjoint (ow x) L) ∧
      ∀ x, W.objs x = none → ow x = ∅ := by
  obtain ⟨W, ow, L, h1, I, -, h4⟩ := bstart_ok denies g ops ha
  refine ⟨W, _, L, ow, h1, h4, I.live, I.sep, I.lost, fun x hx => ?_⟩
  rcases I.cases x with ⟨-, -, h3⟩ | ⟨o, v, h1, -⟩
  · exact h3
  · rw [hx] at h1; cases h1

/-- C87: once all variables are gone, only those blocks are left. -/
theorem C87_rest (denies : Nat → Nat → Bool) (g : (BWorld.init denies).heap.Generous) (ops : List BOp) (ha : BAllAllowed ops fun _ => none)
    (hend : ∀ x, BVals.run ops (fun _ => none) x = none) :
    ∃ W outs, ∃ L : Finset Nat, (BWorld.init denies).run ops = .ok (W, outs) ∧ L.card ≤ ballLosses ops (fun _ => none) ∧
      ∀ q, W.heap.blocks q ≠ none ↔ q ∈ L := by
  obtain ⟨W, ow, L, h1, I, -, h4⟩ := bstart_ok denies g ops ha
  refine ⟨W, _, L, h1, h4, fun q => (I.live q).trans ⟨fun h => ?_, Or.inr⟩⟩
  rcases h with ⟨x, hx⟩ | h
  · rcases I.cases x with ⟨-, -, h3⟩ | ⟨o, v, -, e, -⟩
    · rw [h3] at hx
      simp at hx
    · rw [hend x] at e; cases e
  · exact h

/-! ### Complete objects only -/

theorem bplain_allowed : ∀ (ops : List BOp) {W : BWorld} {vs : BVals} {ow : Nat → Finset Nat} {L : Finset Nat} (_ : BMem W vs ow L) (_ : W.heap.Generous)
    (_ : BAllPlain ops vs), BAllAllowed ops vs := by
  intro ops
  induction ops with
  | nil => intro W vs ow L _ _ _; trivial
  | cons op ops ih =>
    intro W vs ow L I g ha
    obtain ⟨ok, ha'⟩ := ha
    have rel : ∀ x v, vs x = some v → v.status = .done → v.release = .ok () := fun x v hv hd => ((I.inv x v hv).done hd).toSane.release
    have ok' : BAllowed vs op := by
      cases op with
      | new x => trivial
      | copy x y => exact ok
      | assign x y => exact fun h => ⟨(ok h).1, fun w hw => rel x w hw ((ok h).2 w hw)⟩
      | parse x junk s => exact ok
      | destroy x => exact fun v hv => rel x v hv (ok v hv)
    obtain ⟨W1, ow1, E, hs, I1, dj, hd1, hE⟩ := bstep_ok I g op ok'
    exact ⟨ok', ih I1 (by unfold Heap.Generous; rw [hd1]; exact g) ha'⟩

/-- C87: in particular every program runs without memory error in which only complete objects are copied, assigned to and destroyed, whatever
was parsed into them, however often and in whatever pieces, as long as the parser itself is defined on the bytes (C82). -/
theorem C87_plain (denies : Nat → Nat → Bool) (g : (BWorld.init denies).heap.Generous) (ops : List BOp) (ha : BAllPlain ops fun _ => none) :
    ∃ W, (BWorld.init denies).run ops = .ok (W, BVals.outs ops fun _ => none) ∧ ∀ x,
      (BVals.run ops (fun _ => none) x = none → W.objs x = none) ∧
        ∀ v, BVals.run ops (fun _ => none) x = some v → v.status = .done → W.view x = .ok (viewPsbt v) :=
  C87_values denies g ops (bplain_allowed ops (BMem.init denies) g ha)

/-! ### One object -/

/-- `PSBT p; for(s in ss) s.parse(&p);` and the end of the scope. -/
def feedPsbt (calls : List ((Nat → Bytes) × PStream)) : List BOp := .new 0 :: (calls.map (fun c => .parse 0 c.1 c.2) ++ [.destroy 0])

/-- Blocks lost in the calls. -/
def Spec.feedLoss (p : PSBT) : List ((Nat → Bytes) × PStream) → Nat
  | [] => 0
  | c :: cs => PSBT.parseLoss c.1 p c.2 + feedLoss (PSBT.fromStream c.1 p c.2).1 cs

theorem fold_ub : ∀ (calls : List ((Nat → Bytes) × PStream)) {p : PSBT}, p.status = .ub → (calls.foldl (fun p c => (PSBT.fromStream c.1 p c.2).1) p).status = .ub := by
  intro calls
  induction calls with
  | nil => intro p h; exact h
  | cons c calls ih =>
    intro p h
    rw [List.foldl_cons]
    apply ih
    unfold PSBT.fromStream
    rw [if_pos (Or.inr h)]
    exact h

theorem feedPsbt_allowed : ∀ (calls : List ((Nat → Bytes) × PStream)) {vs : BVals} {p : PSBT}, vs 0 = some p → (∀ y, y ≠ 0 → vs y = none) →
    (calls.foldl (fun p c => (PSBT.fromStream c.1 p c.2).1) p).status ≠ .ub →
    (calls.foldl (fun p c => (PSBT.fromStream c.1 p c.2).1) p).release = .ok () →
    BAllAllowed (calls.map (fun c => .parse 0 c.1 c.2) ++ [.destroy 0]) vs ∧ (∀ y, BVals.run (calls.map (fun c => .parse 0 c.1 c.2) ++ [.destroy 0]) vs y = none) ∧
      ballLosses (calls.map (fun c => .parse 0 c.1 c.2) ++ [.destroy 0]) vs = feedLoss p calls := by
  intro calls
  induction calls with
  | nil =>
    intro vs p h0 hn _ hr
    refine ⟨⟨fun v hv => ?_, trivial⟩, fun y => ?_, rfl⟩
    · rw [h0] at hv
      injection hv with hv
      rw [← hv]
      exact hr
    · show vs.step (.destroy 0) y = none
      rw [BVals.step, h0]
      by_cases hy : y = 0
      · rw [hy]; exact BVals.put_eq _ _ _
      · exact (BVals.put_ne _ hy _).trans (hn y hy)
  | cons c calls ih =>
    intro vs p h0 hn hu hr
    rw [List.foldl_cons] at hu hr
    have e : vs.step (.parse 0 c.1 c.2) = vs.put 0 (some (PSBT.fromStream c.1 p c.2).1) := by rw [BVals.step, h0]
    obtain ⟨i1, i2, i3⟩ := ih (vs := vs.step (.parse 0 c.1 c.2)) (p := (PSBT.fromStream c.1 p c.2).1) (by rw [e]; exact BVals.put_eq _ _ _)
      (fun y hy => by rw [e]; exact (BVals.put_ne _ hy _).trans (hn y hy)) hu hr
    refine ⟨⟨fun v hv => ?_, i1⟩, i2, ?_⟩
    · rw [h0] at hv
      injection hv with hv
      rw [← hv]
      exact fun h => hu (fold_ub calls h)
    · rw [List.map_cons, List.cons_append, ballLosses, i3, feedLoss, blosses, h0]

theorem feedPsbt_ok (denies : Nat → Nat → Bool) (g : (BWorld.init denies).heap.Generous) (calls : List ((Nat → Bytes) × PStream))
    (hu : (calls.foldl (fun p c => (PSBT.fromStream c.1 p c.2).1) ({} : PSBT)).status ≠ .ub)
    (hr : (calls.foldl (fun p c => (PSBT.fromStream c.1 p c.2).1) ({} : PSBT)).release = .ok ()) :
    ∃ W outs, ∃ L : Finset Nat, (BWorld.init denies).run (feedPsbt calls) = .ok (W, outs) ∧ L.card ≤ feedLoss {} calls ∧ ∀ q, W.heap.blocks q ≠ none ↔ q ∈ L := by
  obtain ⟨h1, h2, h3⟩ := feedPsbt_allowed calls (vs := BVals.step (fun _ => none) (.new 0)) (p := {}) rfl (fun y hy => if_neg hy) hu hr
  obtain ⟨W, outs, L, k1, k2, k3⟩ := C87_rest denies g (feedPsbt calls) ⟨trivial, h1⟩ h2
  have e : ballLosses (feedPsbt calls) (fun _ => none) = feedLoss {} calls := by
    rw [feedPsbt, ballLosses, h3]
    simp [blosses]
  exact ⟨W, outs, L, k1, by rw [← e]; exact k2, k3⟩

/-- C87: an object into which anything is parsed any number of times is given up without memory error when the last call ended with DONE; at
most the blocks counted by `feedLoss` stay behind. -/
theorem C87_done (denies : Nat → Nat → Bool) (g : (BWorld.init denies).heap.Generous) (calls : List ((Nat → Bytes) × PStream))
    (hd : (calls.foldl (fun p c => (PSBT.fromStream c.1 p c.2).1) ({} : PSBT)).status = .done) :
    ∃ W outs, ∃ L : Finset Nat, (BWorld.init denies).run (feedPsbt calls) = .ok (W, outs) ∧ L.card ≤ feedLoss {} calls ∧ ∀ q, W.heap.blocks q ≠ none ↔ q ∈ L :=
  feedPsbt_ok denies g calls (by rw [hd]; simp) (C77_done calls hd)

theorem feedPieces_fold (junk : Nat → Bytes) : ∀ (cs : List Bytes) (p : PSBT),
    (∀ n, 0 < n → n < cs.length → ((cs.take n).foldl (fun p c => (PSBT.fromStream junk p (.of c)).1) p).status = .incomplete) →
    (feedPieces (PSBT.fromStream junk) (·.status) p cs).1 = cs.foldl (fun p c => (PSBT.fromStream junk p (.of c)).1) p := by
  intro cs
  induction cs with
  | nil => intro p _; rfl
  | cons c cs ih =>
    intro p h
    unfold feedPieces
    dsimp only
    cases cs with
    | nil =>
      split
      · rfl
      · rfl
    | cons d ds =>
      have h1 := h 1 (by omega) (by simp)
      rw [List.take_succ_cons, List.take_zero, List.foldl_cons, List.foldl_nil] at h1
      rw [if_pos h1]
      refine ih _ fun n h2 h3 => ?_
      have := h (n + 1) (by omega) (by simpa using h3)
      rw [List.take_succ_cons, List.foldl_cons] at this
      exact this

/-- C87: a new object is given pieces of a PSBT, every call before the last ends with INCOMPLETE, and the last with INCOMPLETE or DONE: the
object can be given up at this point without memory error, and at most the blocks counted by `feedLoss` stay behind. -/
theorem C87_feed (denies : Nat → Nat → Bool) (g : (BWorld.init denies).heap.Generous) (junk : Nat → Bytes) (cs : List Bytes)
    (hi : ∀ n, 0 < n → n < cs.length → ((cs.take n).foldl (fun p c => (PSBT.fromStream junk p (.of c)).1) ({} : PSBT)).status = .incomplete)
    (hl : (cs.foldl (fun p c => (PSBT.fromStream junk p (.of c)).1) ({} : PSBT)).status = .incomplete ∨
      (cs.foldl (fun p c => (PSBT.fromStream junk p (.of c)).1) ({} : PSBT)).status = .done) :
    ∃ W outs, ∃ L : Finset Nat, (BWorld.init denies).run (feedPsbt (cs.map fun c => (junk, .of c))) = .ok (W, outs) ∧
      L.card ≤ feedLoss {} (cs.map fun c => (junk, .of c)) ∧ ∀ q, W.heap.blocks q ≠ none ↔ q ∈ L := by
  have e := feedPieces_fold junk cs {} hi
  have ef : (cs.map fun c => (junk, PStream.of c)).foldl (fun p c => (PSBT.fromStream c.1 p c.2).1) ({} : PSBT) =
      cs.foldl (fun p c => (PSBT.fromStream junk p (.of c)).1) {} := by rw [List.foldl_map]
  have hr := C77_destroy junk cs (by rw [e]; rcases hl with h | h <;> rw [h] <;> simp) (by rw [e]; rcases hl with h | h <;> rw [h] <;> simp)
  rw [e] at hr
  refine feedPsbt_ok denies g _ ?_ ?_
  · rw [ef]; rcases hl with h | h <;> rw [h] <;> simp
  · rw [ef]; exact hr

/-! ### An object that is used again, and refused -/

theorem PSBT.readMagic_wrong : ∀ (bs : Bytes) (n : Nat) (l : Bytes), ¬ l <+: bs → ¬ bs <+: l → (PSBT.readMagic bs n (.of l)).1 = false
  | [], _, _, _, h => absurd List.nil_prefix h
  | _ :: _, _, [], h, _ => absurd List.nil_prefix h
  | b :: bs, n, c :: l, h1, h2 => by
    rw [PSBT.readMagic, if_pos (by rfl)]
    show (if c ≠ b then ((false, n + 1, PStream.of l) : Bool × Nat × PStream) else PSBT.readMagic bs (n + 1) (.of l)).1 = false
    by_cases e : c = b
    · rw [if_neg (by simp [e])]
      subst e
      exact PSBT.readMagic_wrong bs (n + 1) l (fun h => h1 (List.cons_prefix_cons.2 ⟨rfl, h⟩)) (fun h => h2 (List.cons_prefix_cons.2 ⟨rfl, h⟩))
    · rw [if_pos e]

namespace HPSBT

/-- After the metadata has been given back its arrays are gone. -/
theorem release_dead {h : Heap} {o : HPSBT} {v : PSBT} {A : Finset Nat} (w : h.Wf) (g : h.Generous) (a : PsbtAt o v h A) (hr : v.Rich) :
    ∃ h', o.release h = .ok ((), h') ∧ (v.tx.txIns ≠ [] → h'.blocks o.insPtr = none) ∧ (v.tx.txOuts ≠ [] → h'.blocks o.outsPtr = none) := by
  obtain ⟨_, _, -, ⟨_, _, -, c, -⟩, -⟩ := a
  unfold PsbtCore at c
  rw [fact_star] at c
  obtain ⟨-, _, A', a0, a1, -⟩ := c
  obtain ⟨-, f2, f3⟩ := HTx.facts a0
  have hf := Or.inl (b := v.ins = [] ∧ v.outs = []) (And.intro hr.ins hr.outs)
  obtain ⟨n1, n2, r1, r2⟩ := PSBT.release_counts hf hr.toSane.release
  have si := MetaArr.stable InMetaAt.stable o.insPtr o.ins v.ins
  have so := MetaArr.stable OutMetaAt.stable o.outsPtr o.outs v.outs
  have D : Does (MetaArr InMetaAt o.insPtr o.ins v.ins ⋆ MetaArr OutMetaAt o.outsPtr o.outs v.outs) o.release (fun _ => emp) := by
    unfold release
    refine (MetaArr.free_does InMemAt.stable InDynAt.stable HInMeta.release_does HInMeta.destroy_at o.insPtr o.ins v.ins r1 (f2.trans n1)).step si so fun _ => ?_
    rw [emp_star]
    exact MetaArr.free_does OutMemAt.stable OutDynAt.stable HOutMeta.release_does HOutMeta.destroy_at o.outsPtr o.outs v.outs r2 (f3.trans n2)
  obtain ⟨u, h', B, e, b, s⟩ := D h A' w g a1
  have hB : B = ∅ := b
  subst hB
  obtain ⟨A1, A2, a2, a3, -, rfl⟩ := a1
  refine ⟨h', e, fun hn => ?_, fun hn => ?_⟩
  · have hv : v.ins ≠ [] := fun c => hn (List.length_eq_zero_iff.1 (by rw [← hr.ins, c]; rfl))
    rw [MetaArr.pos hv] at a2
    obtain ⟨B1, B2, b1, -, -, rfl⟩ := a2
    refine s.dead _ (Or.inl ?_) (by simp)
    rw [b1.2]
    simp
  · have hv : v.outs ≠ [] := fun c => hn (List.length_eq_zero_iff.1 (by rw [← hr.outs, c]; rfl))
    rw [MetaArr.pos hv] at a3
    obtain ⟨B1, B2, b1, -, -, rfl⟩ := a3
    refine s.dead _ (Or.inl ?_) (by simp)
    rw [b1.2]
    simp

/-- The arrays are gone and the object does not know. -/
theorem release_gone {h : Heap} {o : HPSBT} (hn : o.tx.txIns.length > 0 ∨ o.tx.txOuts.length > 0) (h1 : o.tx.txIns.length > 0 → h.blocks o.insPtr = none)
    (h2 : o.tx.txOuts.length > 0 → h.blocks o.outsPtr = none) : o.release h = .ub := by
  have acc : ∀ p n, n > 0 → h.blocks p = none → HM.access p n h = .ub := by
    intro p n h1 h2
    unfold HM.access HM.look Heap.access
    dsimp only
    rw [if_pos ⟨h1, h2⟩]
    rfl
  unfold release HM.ifElse
  by_cases hi : o.tx.txIns.length > 0
  · rw [if_pos hi]
    show (HM.access o.insPtr o.tx.txIns.length h >>= _) >>= _ = _
    rw [acc _ _ hi (h1 hi)]
    rfl
  · have ho := hn.resolve_left hi
    rw [if_neg hi, if_pos ho]
    show HM.access o.outsPtr o.tx.txOuts.length h >>= _ = _
    rw [acc _ _ ho (h2 ho)]
    rfl

end HPSBT

/-- C87 is false for an object that is used again and refused: a complete PSBT with inputs or outputs is in the variable, bytes that do not
begin as a PSBT are parsed into it, the call says FAILED, and the end of its lifetime uses memory that has been given back. -/
theorem C87_reuse (denies : Nat → Nat → Bool) (g : (BWorld.init denies).heap.Generous) (ops : List BOp) (ha : BAllAllowed ops fun _ => none) (x : Nat) (v : PSBT)
    (hv : BVals.run ops (fun _ => none) x = some v) (hd : v.status = .done) (hn : v.tx.txIns ≠ [] ∨ v.tx.txOuts ≠ [])
    (junk : Nat → Bytes) (l : Bytes) (h1 : ¬ l <+: psbtMagic) (h2 : ¬ psbtMagic <+: l) :
    (∃ W outs o, (BWorld.init denies).run (ops ++ [.parse x junk (.of l)]) = .ok (W, outs) ∧ W.objs x = some o ∧ o.status = .failed) ∧
      (BWorld.init denies).run (ops ++ [.parse x junk (.of l), .destroy x]) = .ub := by
  obtain ⟨W, ow, L, k1, I, k2, -⟩ := bstart_ok denies g ops ha
  rcases I.cases x with ⟨-, e, -⟩ | ⟨o, u, e1, e2, a⟩
  · rw [hv] at e; cases e
  rw [hv] at e2
  injection e2 with e2
  subst e2
  have hr := (I.inv x v hv).done hd
  obtain ⟨h', r1, r2, r3⟩ := HPSBT.release_dead I.wf k2 a hr
  have hs := HPSBT.same a
  have os : o.status = .done := hs.status.trans hd
  have fx : o.tx.txIns.length = v.tx.txIns.length ∧ o.tx.txOuts.length = v.tx.txOuts.length := by
    obtain ⟨_, _, -, ⟨_, _, -, c, -⟩, -⟩ := a
    unfold PsbtCore at c
    rw [fact_star] at c
    obtain ⟨-, _, A', a0, a1, -⟩ := c
    exact (HTx.facts a0).2
  have hm : (PSBT.readMagic PSBT.magic 0 (.of l)).1 = false := PSBT.readMagic_wrong _ _ _ h1 h2
  obtain ⟨b, n, s, hm2⟩ : ∃ b n s, PSBT.readMagic PSBT.magic 0 (.of l) = (b, n, s) := ⟨_, _, _, rfl⟩
  rw [hm2] at hm
  dsimp only at hm
  subst hm
  have hp : o.fromStream junk (.of l) W.heap = .ok (({ o with tx := { o.tx with status := .done, bytesParsed := 0 }, bytesParsed := 0, sec := 0, lastKeyPos := 5, status := .incomplete } : HPSBT).finish .failed n s, h') := by
    unfold HPSBT.fromStream
    rw [if_neg (by rw [os]; simp)]
    unfold HPSBT.start
    rw [if_pos os]
    show (o.release W.heap >>= _) >>= _ = _
    rw [r1, C.bind_ok]
    show (match PSBT.readMagic (PSBT.magic.drop 0) 0 (.of l) with | (false, br, s) => _ | (true, br, s) => _ : HM (HPSBT × Nat × PStream)) h' = _
    rw [List.drop_zero, hm2]
    rfl
  have st : W.step (.parse x junk (.of l)) = .ok (W.put x (some (({ o with tx := { o.tx with status := .done, bytesParsed := 0 }, bytesParsed := 0, sec := 0, lastKeyPos := 5, status := .incomplete } : HPSBT).finish .failed n s).1) h',
      some ⟨n, s, .failed⟩) := by
    rw [BWorld.step, e1]
    dsimp only
    rw [hp, C.bind_ok]
    rfl
  constructor
  · refine ⟨W.put x (some (({ o with tx := { o.tx with status := .done, bytesParsed := 0 }, bytesParsed := 0, sec := 0, lastKeyPos := 5, status := .incomplete } : HPSBT).finish .failed n s).1) h', (BVals.outs ops fun _ => none) ++ [some ⟨n, s, .failed⟩],
      (({ o with tx := { o.tx with status := .done, bytesParsed := 0 }, bytesParsed := 0, sec := 0, lastKeyPos := 5, status := .incomplete } : HPSBT).finish .failed n s).1, ?_, if_pos rfl, rfl⟩
    · rw [BWorld.run_append, k1, C.bind_ok]
      dsimp only
      rw [BWorld.run, st, C.bind_ok]
      rfl
  · rw [BWorld.run_append, k1, C.bind_ok]
    dsimp only
    rw [BWorld.run, st, C.bind_ok]
    dsimp only
    have hg : (({ o with tx := { o.tx with status := .done, bytesParsed := 0 }, bytesParsed := 0, sec := 0, lastKeyPos := 5, status := .incomplete } : HPSBT).finish .failed n s).1.release h' = .ub := by
      refine HPSBT.release_gone ?_ ?_ ?_
      · show o.tx.txIns.length > 0 ∨ o.tx.txOuts.length > 0
        rw [fx.1, fx.2]
        rcases hn with h | h
        · exact Or.inl (List.length_pos_iff.2 h)
        · exact Or.inr (List.length_pos_iff.2 h)
      · intro h
        change o.tx.txIns.length > 0 at h
        rw [fx.1] at h
        exact r2 (List.length_pos_iff.1 h)
      · intro h
        change o.tx.txOuts.length > 0 at h
        rw [fx.2] at h
        exact r3 (List.length_pos_iff.1 h)
    have sd : (W.put x (some (({ o with tx := { o.tx with status := .done, bytesParsed := 0 }, bytesParsed := 0, sec := 0, lastKeyPos := 5, status := .incomplete } : HPSBT).finish .failed n s).1) h').step (.destroy x) = .ub := by
      have e : (W.put x (some (({ o with tx := { o.tx with status := .done, bytesParsed := 0 }, bytesParsed := 0, sec := 0, lastKeyPos := 5, status := .incomplete } : HPSBT).finish .failed n s).1) h').objs x = some _ := if_pos rfl
      rw [BWorld.step, e]
      dsimp only
      unfold HPSBT.destroy
      show (HPSBT.release _ h' >>= _) >>= _ = _
      rw [hg]
      rfl
    rw [BWorld.run, sd]
    rfl

/-! ### Examples -/

/-- Checks `BPlain` for the variables below `n`. -/
def bcheckOp (vs : BVals) : BOp → Bool
  | .new _ => true
  | .copy _ y => (vs y).all fun v => v.status = .done
  | .assign x y => x = y ∨ ((vs y).all (fun v => v.status = .done) ∧ (vs x).all fun v => v.status = .done)
  | .parse x junk s => (vs x).all fun v => (PSBT.fromStream junk v s).1.status ≠ .ub
  | .destroy x => (vs x).all fun v => v.status = .done

def bcheck : List BOp → BVals → Bool
  | [], _ => true
  | op :: ops, vs => bcheckOp vs op && bcheck ops (vs.step op)

theorem bcheck_sound : ∀ {ops : List BOp} {vs : BVals}, bcheck ops vs = true → BAllPlain ops vs := by
  intro ops
  induction ops with
  | nil => intro vs _; trivial
  | cons op ops ih =>
    intro vs h
    rw [bcheck, Bool.and_eq_true] at h
    refine ⟨?_, ih h.2⟩
    have all : ∀ {o : Option PSBT} {P : PSBT → Bool}, o.all P = true → ∀ v, o = some v → P v = true := by
      intro o P h v hv
      rw [hv] at h
      exact h
    cases op with
    | new x => trivial
    | copy x y => exact fun v hv => of_decide_eq_true (all h.1 v hv)
    | assign x y =>
      intro hxy
      have := (of_decide_eq_true h.1).resolve_left hxy
      exact ⟨fun v hv => of_decide_eq_true (all this.1 v hv), fun v hv => of_decide_eq_true (all this.2 v hv)⟩
    | parse x junk s => exact fun v hv => of_decide_eq_true (all h.1 v hv)
    | destroy x => exact fun v hv => of_decide_eq_true (all h.1 v hv)

theorem some_of {o : Option PSBT} {P : PSBT → Prop} [DecidablePred P] (h : o.any (fun v => decide (P v)) = true) : ∃ v, o = some v ∧ P v := by
  cases o with
  | none => cases h
  | some v => exact ⟨v, rfl, of_decide_eq_true h⟩

/-- A PSBT with one input and one output, a redeem script and a witness script. -/
def exPsbt : Bytes := [0x70, 0x73, 0x62, 0x74, 0xff, 1, 0, 61, 2, 0, 0, 0, 1] ++ zeros 32 ++
  [7, 0, 0, 0, 0, 0xfd, 0xff, 0xff, 0xff, 1, 0xe8, 3, 0, 0, 0, 0, 0, 0, 1, 0x51, 0, 0, 0, 0, 0, 1, 4, 1, 0x53, 0, 1, 1, 2, 0x52, 0x54, 0]

/-- A program that parses it in pieces, copies and assigns it, parses it again into the variable it was read into, and ends. -/
def exPsbtProgram : List BOp :=
  [.new 0, .parse 0 (fun _ => []) (.of (exPsbt.take 40)), .parse 0 (fun _ => []) (.of (exPsbt.drop 40)), .copy 1 0, .new 2, .assign 2 1,
    .parse 0 (fun _ => []) (.of exPsbt), .assign 0 2, .destroy 1, .destroy 0, .destroy 2]

theorem exPsbtProgram_ok : BAllPlain exPsbtProgram fun _ => none := bcheck_sound (by decide +kernel)

/-- The calls say incomplete, done, done. -/
example : (BVals.outs exPsbtProgram fun _ => none).filterMap (·.map (·.status)) = [.incomplete, .done, .done] := by decide +kernel

/-- The copy is what was read, after the original has been overwritten. -/
example : ∃ W outs, (BWorld.init exDenies).run (exPsbtProgram.take 7) = .ok (W, outs) ∧ ∃ t, W.view 1 = .ok t ∧
    t.tx.txIns.map (·.outputIndex) = [7] ∧ t.tx.txOuts.map (·.scriptPubkey.bytes) = [[0x51]] ∧ t.ins.map (·.redeemScript.bytes) = [[0x53]] ∧
    t.outs.map (·.witnessScript.bytes) = [[0x52, 0x54]] := by
  obtain ⟨W, h1, h2⟩ := C87_plain _ exGenerous (exPsbtProgram.take 7) (bcheck_sound (by decide +kernel))
  refine ⟨W, _, h1, ?_⟩
  obtain ⟨v, f, g, k⟩ := some_of (o := BVals.run (exPsbtProgram.take 7) (fun _ => none) 1) (P := fun v => v.status = .done ∧
      ((viewPsbt v).tx.txIns.map (·.outputIndex) = [7] ∧ (viewPsbt v).tx.txOuts.map (·.scriptPubkey.bytes) = [[0x51]] ∧
        (viewPsbt v).ins.map (·.redeemScript.bytes) = [[0x53]] ∧ (viewPsbt v).outs.map (·.witnessScript.bytes) = [[0x52, 0x54]])) (by decide +kernel)
  exact ⟨_, (h2 1).2 v f g, k⟩

/-- At the end of the program the variables are gone; the arrays without elements that copies and assignments make may be left: 3 for the
copy (no derivations and no signatures of the input, no derivations of the output) and 1 for each assignment (no derivations of the output). -/
example : ∃ W outs, ∃ L : Finset Nat, (BWorld.init exDenies).run exPsbtProgram = .ok (W, outs) ∧ L.card ≤ 5 ∧ ∀ q, W.heap.blocks q ≠ none ↔ q ∈ L := by
  obtain ⟨W, outs, L, h1, h2, h3⟩ := C87_rest _ exGenerous _ (bplain_allowed _ (BMem.init _) exGenerous exPsbtProgram_ok) (fun x => by
    rcases Nat.lt_or_ge x 3 with h | h
    · have : x = 0 ∨ x = 1 ∨ x = 2 := by omega
      rcases this with rfl | rfl | rfl <;> exact Option.isNone_iff_eq_none.1 (by decide +kernel)
    · rw [BVals.run_ne]
      intro op ho
      simp only [exPsbtProgram, List.mem_cons, List.not_mem_nil, or_false] at ho
      rcases ho with rfl | rfl | rfl | rfl | rfl | rfl | rfl | rfl | rfl | rfl | rfl <;> simp only [target] <;> omega)
  refine ⟨W, outs, L, h1, Nat.le_trans h2 ?_, h3⟩
  decide +kernel

/-- Read in pieces and given up in the middle or at the end: nothing is left. -/
example (n : Nat) (hn : n = 20 ∨ n = 60 ∨ n = 75 ∨ n = exPsbt.length) :
    ∃ W outs, (BWorld.init exDenies).run (feedPsbt ([exPsbt.take 12, (exPsbt.take n).drop 12].map fun c => (fun _ => [], .of c))) = .ok (W, outs) ∧
      ∀ q, W.heap.blocks q = none := by
  obtain ⟨W, outs, L, h1, h2, h3⟩ := C87_feed _ exGenerous (fun _ => []) [exPsbt.take 12, (exPsbt.take n).drop 12]
    (fun k h1 h2 => by
      have hk : k = 1 := by
        have : ([exPsbt.take 12, (exPsbt.take n).drop 12] : List Bytes).length = 2 := rfl
        omega
      subst hk
      rcases hn with rfl | rfl | rfl | rfl <;> decide +kernel)
    (by rcases hn with rfl | rfl | rfl | rfl <;> decide +kernel)
  have h0 : feedLoss {} ([exPsbt.take 12, (exPsbt.take n).drop 12].map fun c => (fun _ => [], PStream.of c)) = 0 := by
    rcases hn with rfl | rfl | rfl | rfl <;> decide +kernel
  rw [h0] at h2
  have hL : L = ∅ := Finset.card_eq_zero.1 (by omega)
  refine ⟨W, outs, h1, fun q => ?_⟩
  by_contra hc
  have := (h3 q).1 hc
  rw [hL] at this
  simp at this

theorem bplain_once (junk : Nat → Bytes) (s : PStream) (hd : (PSBT.fromStream junk {} s).1.status = .done) :
    BAllPlain [.new 0, .parse 0 junk s, .copy 1 0, .destroy 0] fun _ => none := by
  have e0 : BVals.step (fun _ => none) (.new 0) 0 = some ({} : PSBT) := rfl
  have e1 : BVals.step (BVals.step (fun _ => none) (.new 0)) (.parse 0 junk s) 0 = some (PSBT.fromStream junk {} s).1 := by
    generalize BVals.step (fun _ => none) (.new 0) = w at e0 ⊢
    rw [BVals.step, e0]
    exact BVals.put_eq _ _ _
  generalize hq : (PSBT.fromStream junk {} s).1 = q at hd e1
  refine ⟨trivial, ?_, ?_, ?_, trivial⟩
  · intro v hv
    rw [e0] at hv
    injection hv with hv
    rw [← hv, hq, hd]
    simp
  · intro v hv
    rw [e1] at hv
    injection hv with hv
    rw [← hv]
    exact hd
  · intro v hv
    rw [BVals.step_ne (by simp [target]), e1] at hv
    injection hv with hv
    rw [← hv]
    exact hd

/-- The document of `C57`, with derivations, signatures and a previous transaction, is read, copied and given up. -/
example (junk : Nat → Bytes) (rest : Bytes) : ∃ W outs,
    (BWorld.init exDenies).run [.new 0, .parse 0 junk (.of (exDoc.bytes ++ rest)), .copy 1 0, .destroy 0] = .ok (W, outs) := by
  obtain ⟨W, h, -⟩ := C87_plain _ exGenerous _ (bplain_once junk _ (C57_parse_partial junk PSBT.clean_fresh exDoc exDoc_ok rest).1)
  exact ⟨W, _, h⟩

/-- Used again for bytes that are no PSBT: memory that has been given back is used. -/
example : (BWorld.init exDenies).run [.new 0, .parse 0 (fun _ => []) (.of exPsbt), .parse 0 (fun _ => []) (.of [0x70, 0x73, 0x61]), .destroy 0] = .ub := by
  obtain ⟨v, f, g, k⟩ := some_of (o := BVals.run [.new 0, .parse 0 (fun _ => []) (.of exPsbt)] (fun _ => none) 0)
    (P := fun v => v.status = .done ∧ (v.tx.txIns ≠ [] ∨ v.tx.txOuts ≠ [])) (by decide +kernel)
  exact (C87_reuse _ exGenerous [.new 0, .parse 0 (fun _ => []) (.of exPsbt)] (bplain_allowed _ (BMem.init _) exGenerous (bcheck_sound (by decide +kernel))) 0 v f g k
    (fun _ => []) [0x70, 0x73, 0x61] (by decide) (by decide)).2

end UB
