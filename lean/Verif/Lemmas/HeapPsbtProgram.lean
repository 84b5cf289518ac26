import Verif.Lemmas.HeapPsbtStream
import Verif.Spec.HeapPsbtProgram

/-! Programs with PSBT variables on the heap against the values of their variables. -/

namespace UB
open Heap Spec

/-! ### Copies -/

theorem Script.assign_status (self other : Script) : (self.assign other).status = .done := by
  unfold Script.assign Script.clear
  dsimp only
  split <;> split <;> rfl

theorem PSBT.Rich.fresh {v : PSBT} (h : v.Rich) (self : PSBT) (st : Status) :
    ({ self with tx := v.tx.copy, status := st, ins := v.ins.map InMeta.fresh, outs := v.outs.map OutMeta.fresh } : PSBT).Rich where
  ins := by
    show (v.ins.map InMeta.fresh).length = v.tx.copy.txIns.length
    rw [List.length_map, (Tx.copy_counts _).1]
    exact h.ins
  outs := by
    show (v.outs.map OutMeta.fresh).length = v.tx.copy.txOuts.length
    rw [List.length_map, (Tx.copy_counts _).2]
    exact h.outs
  inReady := by
    intro m hm
    obtain ⟨u, hu, rfl⟩ := List.mem_map.1 hm
    exact h.inReady u hu
  outReady := by
    intro m hm
    obtain ⟨u, hu, rfl⟩ := List.mem_map.1 hm
    exact h.outReady u hu
  tx := by
    refine PSBT.Sound.of_done ⟨?_, ?_⟩ h.txDone
    · intro i hi
      obtain ⟨u, -, rfl⟩ := List.mem_map.1 hi
      exact Script.assign_status _ _
    · intro i hi
      obtain ⟨u, -, rfl⟩ := List.mem_map.1 hi
      exact Script.assign_status _ _
  txDone := h.txDone
  inWhole := by
    intro m hm
    obtain ⟨u, -, rfl⟩ := List.mem_map.1 hm
    exact ⟨Script.assign_status _ _, Script.Settled.fresh _, Script.Settled.fresh _⟩
  outWhole := by
    intro m hm
    obtain ⟨u, -, rfl⟩ := List.mem_map.1 hm
    exact ⟨Script.Settled.fresh _, Script.Settled.fresh _⟩

theorem PSBT.Inv.of_rich {v : PSBT} (h : v.Rich) (hd : v.status = .done) (hk : v.key.Within) (hv : v.value.Within) : v.Inv where
  tx := h.tx
  fill := Or.inl ⟨h.ins, h.outs⟩
  key := hk
  value := hv
  done := fun _ => h
  run := fun c => by rw [hd] at c; cases c
  early := fun c => by rw [hd] at c; cases c

/-! ### The memory of all variables -/

/-- The variable has the value. -/
def BHas : Option HPSBT → Option PSBT → HProp
  | some o, some v => PsbtAt o v
  | none, none => emp
  | _, _ => fun _ _ => False

theorem BHas.stable : ∀ (o : Option HPSBT) (v : Option PSBT), Stable (BHas o v)
  | some o, some v => PsbtAt.stable o v
  | none, none => Stable.emp
  | some _, none => ⟨fun h => h.elim, fun _ _ _ _ h => h.elim⟩
  | none, some _ => ⟨fun h => h.elim, fun _ _ _ _ h => h.elim⟩

/-- The variables have the given values, every block has at most one owner, and the blocks without owner are those of `L`. -/
structure BMem (W : BWorld) (vs : BVals) (ow : Nat → Finset Nat) (L : Finset Nat) : Prop where
  wf : W.heap.Wf
  vals : ∀ x, BHas (W.objs x) (vs x) W.heap (ow x)
  sep : ∀ x y, x ≠ y → Disjoint (ow x) (ow y)
  lost : ∀ x, Disjoint (ow x) L
  live : ∀ q, W.heap.blocks q ≠ none ↔ (∃ x, q ∈ ow x) ∨ q ∈ L
  inv : ∀ x v, vs x = some v → v.Inv

variable {W : BWorld} {vs : BVals} {ow : Nat → Finset Nat} {L : Finset Nat}

theorem BMem.init (denies : Nat → Nat → Bool) : BMem (BWorld.init denies) (fun _ => none) (fun _ => ∅) ∅ where
  wf := ⟨rfl, fun _ _ => rfl, fun _ _ _ h => by cases h⟩
  vals := fun _ => rfl
  sep := fun _ _ _ => by simp
  lost := fun _ => by simp
  live := fun q => by simp [BWorld.init]
  inv := fun _ _ h => by cases h

theorem BMem.cases (I : BMem W vs ow L) (x : Nat) :
    (W.objs x = none ∧ vs x = none ∧ ow x = ∅) ∨ ∃ o v, W.objs x = some o ∧ vs x = some v ∧ PsbtAt o v W.heap (ow x) := by
  have m := I.vals x
  cases ho : W.objs x with
  | none => cases hv : vs x with
    | none => rw [ho, hv] at m; exact Or.inl ⟨rfl, rfl, m⟩
    | some v => rw [ho, hv] at m; exact m.elim
  | some o => cases hv : vs x with
    | none => rw [ho, hv] at m; exact m.elim
    | some v => rw [ho, hv] at m; exact Or.inr ⟨o, v, rfl, rfl, m⟩

/-- The variables of `S` get new values. -/
theorem BMem.update (I : BMem W vs ow L) (S : Nat → Prop) [DecidablePred S] {A B E : Finset Nat} (hA : ∀ q, q ∈ A ↔ ∃ x, S x ∧ q ∈ ow x) {h' : Heap}
    (s : Step W.heap h' A (B ∪ E)) (d : Disjoint B E) {objs' : Nat → Option HPSBT} {vs' : BVals} {ow' : Nat → Finset Nat}
    (same : ∀ x, ¬ S x → objs' x = W.objs x ∧ vs' x = vs x ∧ ow' x = ow x) (m : ∀ x, S x → BHas (objs' x) (vs' x) h' (ow' x) ∧ ∀ v, vs' x = some v → v.Inv)
    (hB : ∀ q, q ∈ B ↔ ∃ x, S x ∧ q ∈ ow' x) (sepS : ∀ x y, S x → S y → x ≠ y → Disjoint (ow' x) (ow' y)) :
    BMem ⟨h', objs'⟩ vs' ow' (L ∪ E) ∧ Disjoint L E := by
  have hLl : ∀ q ∈ L, W.heap.blocks q ≠ none := fun q hq => (I.live q).2 (Or.inr hq)
  have hAl : ∀ q ∈ A, W.heap.blocks q ≠ none := fun q hq => by
    obtain ⟨x, -, hx⟩ := (hA q).1 hq
    exact (I.live q).2 (Or.inl ⟨x, hx⟩)
  have hyA : ∀ y, ¬ S y → Disjoint (ow y) A := by
    intro y hy
    rw [Finset.disjoint_left]
    intro q hq hqA
    obtain ⟨x, hx, hqx⟩ := (hA q).1 hqA
    exact Finset.disjoint_left.1 (I.sep y x (fun e => hy (e ▸ hx))) hq hqx
  have hLA : Disjoint L A := by
    rw [Finset.disjoint_left]
    intro q hq hqA
    obtain ⟨x, hx, hqx⟩ := (hA q).1 hqA
    exact Finset.disjoint_left.1 (I.lost x) hqx hq
  have hoth : ∀ y, ¬ S y → Disjoint (ow y) (B ∪ E) := fun y hy => s.apart I.wf (fun q hq => (I.live q).2 (Or.inl ⟨y, hq⟩)) (hyA y hy)
  have hL : Disjoint L (B ∪ E) := s.apart I.wf hLl hLA
  have hL2 := Finset.disjoint_union_right.1 hL
  have sub : ∀ x, S x → ow' x ⊆ B := fun x hx q hq => (hB q).2 ⟨x, hx, hq⟩
  refine ⟨⟨s.wf, ?_, ?_, ?_, ?_, ?_⟩, hL2.2⟩
  · intro y
    by_cases hy : S y
    · exact (m y hy).1
    · obtain ⟨e1, e2, e3⟩ := same y hy
      show BHas (objs' y) (vs' y) h' (ow' y)
      rw [e1, e2, e3]
      exact (BHas.stable _ _).keep I.wf s hAl (hyA y hy) (I.vals y)
  · intro y z hyz
    by_cases hy : S y
    · by_cases hz : S z
      · exact sepS y z hy hz hyz
      · rw [(same z hz).2.2]
        exact (Finset.disjoint_of_subset_right (sub y hy) (Finset.disjoint_union_right.1 (hoth z hz)).1).symm
    · rw [(same y hy).2.2]
      by_cases hz : S z
      · exact Finset.disjoint_of_subset_right (sub z hz) (Finset.disjoint_union_right.1 (hoth y hy)).1
      · rw [(same z hz).2.2]
        exact I.sep y z hyz
  · intro y
    rw [Finset.disjoint_union_right]
    by_cases hy : S y
    · exact ⟨(Finset.disjoint_of_subset_right (sub y hy) hL2.1).symm, Finset.disjoint_of_subset_left (sub y hy) d⟩
    · rw [(same y hy).2.2]
      exact ⟨I.lost y, (Finset.disjoint_union_right.1 (hoth y hy)).2⟩
  · intro q
    show h'.blocks q ≠ none ↔ _
    constructor
    · intro hq
      by_cases hqB : q ∈ B ∪ E
      · rcases Finset.mem_union.1 hqB with hqB | hqE
        · obtain ⟨x, -, hx⟩ := (hB q).1 hqB
          exact Or.inl ⟨x, hx⟩
        · exact Or.inr (Finset.mem_union_right _ hqE)
      · have hn : ¬ (q ∈ A ∨ W.heap.next < q) := fun c => hq (s.dead q c hqB)
        rw [not_or] at hn
        rw [s.other q hn.1 (by omega)] at hq
        rcases (I.live q).1 hq with ⟨x, hx⟩ | hq
        · by_cases hs : S x
          · exact absurd ((hA q).2 ⟨x, hs, hx⟩) hn.1
          · exact Or.inl ⟨x, by rw [(same x hs).2.2]; exact hx⟩
        · exact Or.inr (Finset.mem_union_left _ hq)
    · rintro (⟨x, hx⟩ | hq)
      · by_cases hs : S x
        · exact s.live q (Finset.mem_union_left _ ((hB q).2 ⟨x, hs, hx⟩))
        · rw [(same x hs).2.2] at hx
          exact s.alive I.wf (fun r hr => (I.live r).2 (Or.inl ⟨x, hr⟩)) (hyA x hs) q hx
      · rcases Finset.mem_union.1 hq with hq | hq
        · exact s.alive I.wf hLl hLA q hq
        · exact s.live q (Finset.mem_union_right _ hq)
  · intro y v hv
    by_cases hy : S y
    · exact (m y hy).2 v hv
    · rw [(same y hy).2.1] at hv
      exact I.inv y v hv

/-- One variable gets a new value. -/
theorem BMem.put (I : BMem W vs ow L) {x : Nat} {h' : Heap} {o : Option HPSBT} {v : Option PSBT} {B E : Finset Nat} (s : Step W.heap h' (ow x) (B ∪ E))
    (d : Disjoint B E) (m : BHas o v h' B) (hi : ∀ u, v = some u → u.Inv) :
    BMem (W.put x o h') (vs.put x v) (owput ow x B) (L ∪ E) ∧ Disjoint L E := by
  refine I.update (fun y => y = x) (A := ow x) (B := B) (by simp) s d (objs' := (W.put x o h').objs) ?_ ?_ ?_ ?_
  · intro y hy
    exact ⟨if_neg hy, if_neg hy, if_neg hy⟩
  · rintro y rfl
    unfold BWorld.put BVals.put owput
    simp only [if_true]
    exact ⟨m, hi⟩
  · intro q
    simp [owput]
  · rintro y z rfl rfl h
    exact absurd rfl h

/-- What one statement does. -/
structure BStep (W : BWorld) (vs : BVals) (L : Finset Nat) (op : BOp) (W' : BWorld) (ow' : Nat → Finset Nat) (E : Finset Nat) : Prop where
  run : W.step op = .ok (W', vs.out op)
  mem : BMem W' (vs.step op) ow' (L ∪ E)
  dis : Disjoint L E
  denies : W'.heap.denies = W.heap.denies
  loss : E.card ≤ blosses vs op

theorem BStep.none (I : BMem W vs ow L) {op : BOp} (h1 : W.step op = .ok (W, .none)) (h2 : vs.step op = vs) (h3 : vs.out op = .none) :
    ∃ W' ow' E, BStep W vs L op W' ow' E :=
  ⟨W, ow, ∅, by rw [h1, h3], by rw [h2, Finset.union_empty]; exact I, by simp, rfl, by simp⟩

theorem bstep_ok (I : BMem W vs ow L) (g : W.heap.Generous) (op : BOp) (ok : BAllowed vs op) : ∃ W' ow' E, BStep W vs L op W' ow' E := by
  cases op with
  | new x =>
    rcases I.cases x with ⟨h1, h2, h3⟩ | ⟨o, v, h1, h2, h3⟩
    · obtain ⟨m, d⟩ := I.put (x := x) (h' := W.heap) (o := some {}) (v := some {}) (B := ∅) (E := ∅) (by rw [h3]; exact Step.refl I.wf (by simp)) (by simp)
        (PsbtAt.null rfl) (fun u hu => by injection hu with hu; rw [← hu]; exact PSBT.Inv.null)
      exact ⟨W.put x (some {}) W.heap, _, ∅, by rw [BWorld.step, h1]; rfl, by rw [BVals.step, h2]; exact m, d, rfl, by simp⟩
    · exact BStep.none I (by rw [BWorld.step, h1]) (by rw [BVals.step, h2]) rfl
  | copy x y =>
    rcases I.cases x with ⟨h1, h2, h3⟩ | ⟨o, v, h1, h2, h3⟩
    · rcases I.cases y with ⟨k1, k2, k3⟩ | ⟨o, v, k1, k2, k3⟩
      · exact BStep.none I (by rw [BWorld.step, h1, k1]) (by rw [BVals.step, h2, k2]) rfl
      · have hd := ok v k2
        have hr := (I.inv y v k2).done hd
        obtain ⟨o', h', B, e, ⟨B1, C1, m1, ⟨E, B2, l, m2, d2, rfl⟩, d1, rfl⟩, s⟩ := HPSBT.copy_does o v hr W.heap (ow y) I.wf g k3
        have hxy : x ≠ y := by
          rintro rfl
          rw [h1] at k1
          cases k1
        rw [Finset.disjoint_union_right] at d1
        obtain ⟨m, d⟩ := I.update (fun z => z = x ∨ z = y) (A := ow y) (B := B1 ∪ B2) (E := E) (h' := h')
          (objs' := (W.put x (some o') h').objs) (vs' := vs.put x (some { tx := v.tx.copy, status := v.status, ins := v.ins.map InMeta.fresh, outs := v.outs.map OutMeta.fresh }))
          (ow' := owput (owput ow x B1) y B2)
          (by
            intro q
            constructor
            · intro hq
              exact ⟨y, Or.inr rfl, hq⟩
            · rintro ⟨z, rfl | rfl, hq⟩
              · rw [h3] at hq
                simp at hq
              · exact hq)
          (by
            have : B1 ∪ B2 ∪ E = B1 ∪ (E ∪ B2) := by rw [Finset.union_assoc, Finset.union_comm B2]
            rw [this]
            exact s)
          (by rw [Finset.disjoint_union_left]; exact ⟨d1.1, d2.symm⟩)
          (by
            intro z hz
            rw [not_or] at hz
            refine ⟨if_neg hz.1, if_neg hz.1, ?_⟩
            unfold owput
            rw [if_neg hz.2, if_neg hz.1])
          (by
            rintro z (rfl | rfl)
            · have e1 : (W.put z (some o') h').objs z = some o' := if_pos rfl
              have e2 : owput (owput ow z B1) y B2 z = B1 := by
                unfold owput
                rw [if_neg hxy, if_pos rfl]
              have e3 : ∀ u, vs.put z u z = u := fun u => if_pos rfl
              rw [e1, e2, e3]
              refine ⟨m1, fun u hu => ?_⟩
              injection hu with hu
              rw [← hu]
              exact .of_rich (hr.fresh {} v.status) hd (Script.Within.of_ne (by simp)) (Script.Within.of_ne (by simp))
            · have e1 : (W.put x (some o') h').objs z = some o := (if_neg (Ne.symm hxy)).trans k1
              have e2 : owput (owput ow x B1) z B2 z = B2 := if_pos rfl
              have e3 : ∀ u, vs.put x u z = some v := fun u => (if_neg (Ne.symm hxy)).trans k2
              rw [e1, e2, e3]
              refine ⟨m2, fun u hu => ?_⟩
              injection hu with hu
              rw [← hu]
              exact I.inv z v k2)
          (by
            intro q
            have e1 : owput (owput ow x B1) y B2 x = B1 := by
              unfold owput
              rw [if_neg hxy, if_pos rfl]
            have e2 : owput (owput ow x B1) y B2 y = B2 := if_pos rfl
            constructor
            · intro hq
              rcases Finset.mem_union.1 hq with hq | hq
              · exact ⟨x, Or.inl rfl, by rw [e1]; exact hq⟩
              · exact ⟨y, Or.inr rfl, by rw [e2]; exact hq⟩
            · rintro ⟨z, rfl | rfl, hq⟩
              · rw [e1] at hq
                exact Finset.mem_union_left _ hq
              · rw [e2] at hq
                exact Finset.mem_union_right _ hq)
          (by
            have e1 : owput (owput ow x B1) y B2 x = B1 := by
              unfold owput
              rw [if_neg hxy, if_pos rfl]
            have e2 : owput (owput ow x B1) y B2 y = B2 := if_pos rfl
            rintro z t (rfl | rfl) (rfl | rfl) hzt
            · exact absurd rfl hzt
            · rw [e1, e2]; exact d1.2
            · rw [e1, e2]; exact d1.2.symm
            · exact absurd rfl hzt)
        have ec : v.copy = .ok { tx := v.tx.copy, status := v.status, ins := v.ins.map InMeta.fresh, outs := v.outs.map OutMeta.fresh } := PSBT.take_rich {} hr
        refine ⟨W.put x (some o') h', owput (owput ow x B1) y B2, E, ?_, ?_, d, s.denies, ?_⟩
        · rw [BWorld.step, h1, k1]
          dsimp only
          rw [e, C.bind_ok]
          rfl
        · simp only [BVals.step, h2, k2, ec]
          exact m
        · simp only [blosses, h2, k2]
          exact l.2
    · refine BStep.none I ?_ ?_ rfl
      · rw [BWorld.step, h1]
      · rw [BVals.step, h2]
  | assign x y =>
    by_cases hxy : x = y
    · exact BStep.none I (by rw [BWorld.step, if_pos hxy]) (by rw [BVals.step, if_pos hxy]) rfl
    obtain ⟨okv, okw⟩ := ok hxy
    rcases I.cases x with ⟨h1, h2, h3⟩ | ⟨self, w, h1, h2, h3⟩
    · exact BStep.none I (by rw [BWorld.step, if_neg hxy, h1]) (by rw [BVals.step, if_neg hxy, h2]) rfl
    rcases I.cases y with ⟨k1, k2, k3⟩ | ⟨o, v, k1, k2, k3⟩
    · exact BStep.none I (by rw [BWorld.step, if_neg hxy, h1, k1]) (by rw [BVals.step, if_neg hxy, h2, k2]) rfl
    have hd := okv v k2
    have hr := (I.inv y v k2).done hd
    have hw := I.inv x w h2
    obtain ⟨o', h', B, e, ⟨B1, C1, m1, ⟨E, B2, l, m2, d2, rfl⟩, d1, rfl⟩, s⟩ :=
      HPSBT.assign_does self o w v hw.fill (okw w h2) hr W.heap (ow x ∪ ow y) I.wf g ⟨ow x, ow y, h3, k3, I.sep x y hxy, rfl⟩
    rw [Finset.disjoint_union_right] at d1
    have ec : w.assign v = .ok { w with tx := v.tx.copy, status := v.status, ins := v.ins.map InMeta.fresh, outs := v.outs.map OutMeta.fresh } := by
      unfold PSBT.assign
      rw [okw w h2, C.bind_ok]
      exact PSBT.take_rich w hr
    have e1 : owput (owput ow x B1) y B2 x = B1 := by
      unfold owput
      rw [if_neg hxy, if_pos rfl]
    have e2 : owput (owput ow x B1) y B2 y = B2 := if_pos rfl
    obtain ⟨m, d⟩ := I.update (fun z => z = x ∨ z = y) (A := ow x ∪ ow y) (B := B1 ∪ B2) (E := E) (h' := h')
      (objs' := (W.put x (some o') h').objs) (vs' := vs.put x (some { w with tx := v.tx.copy, status := v.status, ins := v.ins.map InMeta.fresh, outs := v.outs.map OutMeta.fresh }))
      (ow' := owput (owput ow x B1) y B2)
      (by
        intro q
        rw [Finset.mem_union]
        constructor
        · rintro (hq | hq)
          · exact ⟨x, Or.inl rfl, hq⟩
          · exact ⟨y, Or.inr rfl, hq⟩
        · rintro ⟨z, rfl | rfl, hq⟩
          · exact Or.inl hq
          · exact Or.inr hq)
      (by
        have : B1 ∪ B2 ∪ E = B1 ∪ (E ∪ B2) := by rw [Finset.union_assoc, Finset.union_comm B2]
        rw [this]
        exact s)
      (by rw [Finset.disjoint_union_left]; exact ⟨d1.1, d2.symm⟩)
      (by
        intro z hz
        rw [not_or] at hz
        refine ⟨if_neg hz.1, if_neg hz.1, ?_⟩
        unfold owput
        rw [if_neg hz.2, if_neg hz.1])
      (by
        rintro z (rfl | rfl)
        · have f1 : (W.put z (some o') h').objs z = some o' := if_pos rfl
          have f3 : ∀ u, vs.put z u z = u := fun u => if_pos rfl
          rw [f1, e1, f3]
          refine ⟨m1, fun u hu => ?_⟩
          injection hu with hu
          rw [← hu]
          exact .of_rich (hr.fresh w v.status) hd hw.key hw.value
        · have f1 : (W.put x (some o') h').objs z = some o := (if_neg (Ne.symm hxy)).trans k1
          have f3 : ∀ u, vs.put x u z = some v := fun u => (if_neg (Ne.symm hxy)).trans k2
          rw [f1, e2, f3]
          refine ⟨m2, fun u hu => ?_⟩
          injection hu with hu
          rw [← hu]
          exact I.inv z v k2)
      (by
        intro q
        constructor
        · intro hq
          rcases Finset.mem_union.1 hq with hq | hq
          · exact ⟨x, Or.inl rfl, by rw [e1]; exact hq⟩
          · exact ⟨y, Or.inr rfl, by rw [e2]; exact hq⟩
        · rintro ⟨z, rfl | rfl, hq⟩
          · rw [e1] at hq
            exact Finset.mem_union_left _ hq
          · rw [e2] at hq
            exact Finset.mem_union_right _ hq)
      (by
        rintro z t (rfl | rfl) (rfl | rfl) hzt
        · exact absurd rfl hzt
        · rw [e1, e2]; exact d1.2
        · rw [e1, e2]; exact d1.2.symm
        · exact absurd rfl hzt)
    refine ⟨W.put x (some o') h', owput (owput ow x B1) y B2, E, ?_, ?_, d, s.denies, ?_⟩
    · rw [BWorld.step, if_neg hxy, h1, k1]
      dsimp only
      rw [e, C.bind_ok]
      rfl
    · simp only [BVals.step, if_neg hxy, h2, k2, ec]
      exact m
    · simp only [blosses, if_neg hxy, h2, k2]
      exact l.2
  | parse x junk s =>
    rcases I.cases x with ⟨h1, h2, h3⟩ | ⟨o, v, h1, h2, h3⟩
    · exact BStep.none I (by rw [BWorld.step, h1]) (by rw [BVals.step, h2]) (by rw [BVals.out, h2]; rfl)
    obtain ⟨⟨o', r⟩, h', B, e, a, st⟩ := HPSBT.fromStream_does junk o v s (I.inv x v h2) (ok v h2) W.heap (ow x) I.wf g h3
    unfold HPSBT.ParsePost at a
    rw [fact_star] at a
    obtain ⟨⟨er, hi⟩, B1, E, m1, l, d1, rfl⟩ := a
    dsimp only at er m1
    obtain ⟨m, d⟩ := I.put (x := x) (h' := h') (o := some o') (v := some (PSBT.fromStream junk v s).1) (B := B1) (E := E) st d1 m1
      (fun u hu => by injection hu with hu; rw [← hu]; exact hi)
    refine ⟨W.put x (some o') h', owput ow x B1, E, ?_, ?_, d, st.denies, ?_⟩
    · rw [BWorld.step, h1]
      dsimp only
      rw [e, C.bind_ok]
      dsimp only
      rw [BVals.out, h2, (HPSBT.same m1).status, er]
      rfl
    · rw [BVals.step, h2]
      exact m
    · rw [blosses, h2]
      exact l.2
  | destroy x =>
    rcases I.cases x with ⟨h1, h2, h3⟩ | ⟨o, v, h1, h2, h3⟩
    · exact BStep.none I (by rw [BWorld.step, h1]) (by rw [BVals.step, h2]) rfl
    obtain ⟨u, h', B, e, a, st⟩ := HPSBT.destroy_does o v (I.inv x v h2).fill (ok v h2) W.heap (ow x) I.wf g h3
    have hB : B = ∅ := a
    subst hB
    obtain ⟨m, d⟩ := I.put (x := x) (h' := h') (o := .none) (v := .none) (B := ∅) (E := ∅) (by simpa using st) (by simp) rfl (fun u hu => by cases hu)
    refine ⟨W.put x .none h', owput ow x ∅, ∅, ?_, ?_, d, st.denies, by simp⟩
    · rw [BWorld.step, h1]
      dsimp only
      rw [e, C.bind_ok]
      rfl
    · rw [BVals.step, h2]
      exact m

/-! ### What can be read -/

theorem HScript.view_at {h : Heap} (w : h.Wf) {o : HScript} {v : Script} {A : Finset Nat} (a : ScriptAt o v h A) : o.view h = .ok (viewScript v) := by
  have es : o.status = v.status := by rw [a.1]; rfl
  unfold HScript.view viewScript
  rw [es]
  by_cases hd : v.status = .done
  · rw [if_pos hd, if_pos hd, HScript.load_at w a hd]
  · rw [if_neg hd, if_neg hd]

theorem HDerivation.view_at {h : Heap} {o : HDerivation} {v : Derivation} {A : Finset Nat} (a : DerAt o v h A) (hr : v.ready = true) : o.view h = .ok v := by
  unfold DerAt at a
  rw [fact_star] at a
  obtain ⟨e, b⟩ := a
  unfold HDerivation.view
  have e1 : o.ready = true := by rw [e]; exact hr
  have e2 : o.path = v.path := by rw [e]
  have e3 : o.pubkey = v.pubkey := by rw [e]
  have e4 : o.fingerprint = v.fingerprint := by rw [e]
  rw [if_pos e1, access_ok, C.bind_ok, C.pure_eq, e2, e3, e4]
  · cases v
    dsimp only at hr
    rw [hr]
  · intro hp
    rw [e2] at hp
    rw [BlockIf.pos (List.length_pos_iff.1 hp)] at b
    exact b.1

theorem DersAt.view_at {h : Heap} {p : Nat} {os : List HDerivation} {vs : List Derivation} {A : Finset Nat} (a : DersAt p os vs h A) (hr : Derivation.AllReady vs) :
    h.access p os.length = .ok () ∧ loadAll HDerivation.view os h = .ok vs := by
  refine ⟨access_ok fun hn => a.block hn, ?_⟩
  obtain ⟨A1, A2, -, e, -⟩ := a
  have := loadAll_at (f := HDerivation.view) (g := id) e (fun v hv o A b => HDerivation.view_at b (hr v hv))
  rw [List.map_id] at this
  exact this

theorem HInMeta.view_at {h : Heap} (w : h.Wf) {o : HInMeta} {v : InMeta} {A : Finset Nat} (a : InMetaAt o v h A) (hw : v.Whole) (hr : Derivation.AllReady v.derivations) :
    o.view h = .ok (viewInMeta v) := by
  obtain ⟨A1, A2, ⟨A3, A4, a1, ⟨A5, A6, a2, a3, -⟩, -⟩, ⟨A7, A8, a4, a5, -⟩, -⟩ := a
  obtain ⟨d1, d2⟩ := a4.view_at hr
  unfold SigsAt at a5
  rw [fact_star] at a5
  obtain ⟨es, b⟩ := a5
  have acc : h.access o.sigPtr o.sigs.length = .ok () := access_ok fun hn => by
    rw [es] at hn
    rw [BlockIf.pos (List.length_pos_iff.1 hn)] at b
    exact b.1
  unfold HInMeta.view viewInMeta
  rw [HTxOut.load_at w a1 hw.spk, C.bind_ok, d1, C.bind_ok, d2, C.bind_ok, HScript.view_at w a2, C.bind_ok, HScript.view_at w a3, C.bind_ok, acc, C.bind_ok, es]
  rfl

theorem HOutMeta.view_at {h : Heap} (w : h.Wf) {o : HOutMeta} {v : OutMeta} {A : Finset Nat} (a : OutMetaAt o v h A) (hr : Derivation.AllReady v.derivations) :
    o.view h = .ok (viewOutMeta v) := by
  obtain ⟨A1, A2, ⟨A5, A6, a2, a3, -⟩, a4, -⟩ := a
  obtain ⟨d1, d2⟩ := DersAt.view_at a4 hr
  unfold HOutMeta.view viewOutMeta
  rw [d1, C.bind_ok, d2, C.bind_ok, HScript.view_at w a2, C.bind_ok, HScript.view_at w a3, C.bind_ok]
  rfl

theorem HPSBT.view_at {h : Heap} (w : h.Wf) {o : HPSBT} {v : PSBT} {A : Finset Nat} (a : PsbtAt o v h A) (hr : v.Rich) : o.view h = .ok (viewPsbt v) := by
  have hs := HPSBT.same a
  obtain ⟨_, _, -, ⟨_, _, -, c, -⟩, -⟩ := a
  unfold PsbtCore at c
  rw [fact_star] at c
  obtain ⟨-, _, _, a0, ⟨_, _, a2, a3, -⟩, -⟩ := c
  obtain ⟨-, f2, f3⟩ := HTx.facts a0
  obtain ⟨u, a1, -⟩ := a0
  obtain ⟨_, _, -, e2, -⟩ := a2.each
  obtain ⟨_, _, -, e3, -⟩ := a3.each
  unfold HPSBT.view viewPsbt
  rw [f2, f3, ← hr.ins, ← hr.outs, HTx.load_at w a1 (hr.tx.all hr.txDone), C.bind_ok, access_ok (fun hn => a2.block (List.length_pos_iff.1 hn)), C.bind_ok, if_neg,
    loadAll_at (g := viewInMeta) e2 (fun m hm o A b => HInMeta.view_at w b (hr.inWhole m hm) (hr.inReady m hm)), C.bind_ok,
    access_ok (fun hn => a3.block (List.length_pos_iff.1 hn)), C.bind_ok, if_neg,
    loadAll_at (g := viewOutMeta) e3 (fun m hm o A b => HOutMeta.view_at w b (hr.outReady m hm)), C.bind_ok, hs.status]
  · rfl
  · rcases a3.length with e | e
    · rw [e]; simp
    · omega
  · rcases a2.length with e | e
    · rw [e]; simp
    · omega

theorem BMem.view (I : BMem W vs ow L) {x : Nat} {v : PSBT} (hv : vs x = some v) (hd : v.status = .done) : W.view x = .ok (viewPsbt v) := by
  rcases I.cases x with ⟨h1, h2, -⟩ | ⟨o, u, h1, h2, h3⟩
  · rw [hv] at h2; cases h2
  · rw [hv] at h2
    injection h2 with h2
    subst h2
    unfold BWorld.view
    rw [h1]
    exact HPSBT.view_at I.wf h3 ((I.inv x _ hv).done hd)

end UB
