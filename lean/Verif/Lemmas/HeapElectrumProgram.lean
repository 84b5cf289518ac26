import Verif.Lemmas.HeapElectrum

/-! Programs with ElectrumTx variables on the heap against the values of their variables. -/

namespace UB
open Heap Spec

/-! ### The memory of all variables -/

/-- The variable has the value. -/
def EHas : Option HElectrumTx → Option (ElectrumTx × Bool) → HProp
  | some o, some v => ElectAt o v
  | none, none => emp
  | _, _ => fun _ _ => False

theorem EHas.stable : ∀ (o : Option HElectrumTx) (v : Option (ElectrumTx × Bool)), Stable (EHas o v)
  | some o, some v => ElectAt.stable o v
  | none, none => Stable.emp
  | some _, none => ⟨fun h => h.elim, fun _ _ _ _ h => h.elim⟩
  | none, some _ => ⟨fun h => h.elim, fun _ _ _ _ h => h.elim⟩

/-- The variables have the given values, every block has at most one owner, and the blocks without owner are those of `L`. -/
structure EMem (W : EWorld) (vs : EVals) (ow : Nat → Finset Nat) (L : Finset Nat) : Prop where
  wf : W.heap.Wf
  vals : ∀ x, EHas (W.objs x) (vs x) W.heap (ow x)
  sep : ∀ x y, x ≠ y → Disjoint (ow x) (ow y)
  lost : ∀ x, Disjoint (ow x) L
  live : ∀ q, W.heap.blocks q ≠ none ↔ (∃ x, q ∈ ow x) ∨ q ∈ L
  inv : ∀ x v, vs x = some v → v.1.Inv v.2

variable {W : EWorld} {vs : EVals} {ow : Nat → Finset Nat} {L : Finset Nat}

theorem EMem.init (denies : Nat → Nat → Bool) : EMem (EWorld.init denies) (fun _ => none) (fun _ => ∅) ∅ where
  wf := ⟨rfl, fun _ _ => rfl, fun _ _ _ h => by cases h⟩
  vals := fun _ => rfl
  sep := fun _ _ _ => by simp
  lost := fun _ => by simp
  live := fun q => by simp [EWorld.init]
  inv := fun _ _ h => by cases h

theorem EMem.cases (I : EMem W vs ow L) (x : Nat) :
    (W.objs x = none ∧ vs x = none ∧ ow x = ∅) ∨ ∃ o v, W.objs x = some o ∧ vs x = some v ∧ ElectAt o v W.heap (ow x) := by
  have m := I.vals x
  cases ho : W.objs x with
  | none => cases hv : vs x with
    | none => rw [ho, hv] at m; exact Or.inl ⟨rfl, rfl, m⟩
    | some v => rw [ho, hv] at m; exact m.elim
  | some o => cases hv : vs x with
    | none => rw [ho, hv] at m; exact m.elim
    | some v => rw [ho, hv] at m; exact Or.inr ⟨o, v, rfl, rfl, m⟩

/-- The variables of `S` get new values. -/
theorem EMem.update (I : EMem W vs ow L) (S : Nat → Prop) [DecidablePred S] {A B E : Finset Nat} (hA : ∀ q, q ∈ A ↔ ∃ x, S x ∧ q ∈ ow x) {h' : Heap}
    (s : Step W.heap h' A (B ∪ E)) (d : Disjoint B E) {objs' : Nat → Option HElectrumTx} {vs' : EVals} {ow' : Nat → Finset Nat}
    (same : ∀ x, ¬ S x → objs' x = W.objs x ∧ vs' x = vs x ∧ ow' x = ow x) (m : ∀ x, S x → EHas (objs' x) (vs' x) h' (ow' x) ∧ ∀ v, vs' x = some v → v.1.Inv v.2)
    (hB : ∀ q, q ∈ B ↔ ∃ x, S x ∧ q ∈ ow' x) (sepS : ∀ x y, S x → S y → x ≠ y → Disjoint (ow' x) (ow' y)) :
    EMem ⟨h', objs'⟩ vs' ow' (L ∪ E) ∧ Disjoint L E := by
  have hLl : ∀ q ∈ L, W.heap.blocks q ≠ none := fun q hq => (I.live q).2 (Or.inr hq)
  have hAl : ∀ q ∈ A, W.heap.blocks q ≠ none := fun q hq => by
    obtain ⟨x, -, hx⟩ := (hA q).1 hq
    exact (I.live q).2 (Or.inl ⟨x, hx⟩)
  have hyA : ∀ y, ¬ S y → Disjoint (ow y) A := by
    intro y hy
    rw [Finset.disjoint_left]
    intro q hq hqA
    obtain ⟨x, hx, hqx⟩ := (hA q).1 hqA
    exact Finset.disjoint_left.1 (I.sep y x (fun e => hy (e ▸ hx))) hq hqx
  have hLA : Disjoint L A := by
    rw [Finset.disjoint_left]
    intro q hq hqA
    obtain ⟨x, hx, hqx⟩ := (hA q).1 hqA
    exact Finset.disjoint_left.1 (I.lost x) hqx hq
  have hoth : ∀ y, ¬ S y → Disjoint (ow y) (B ∪ E) := fun y hy => s.apart I.wf (fun q hq => (I.live q).2 (Or.inl ⟨y, hq⟩)) (hyA y hy)
  have hL : Disjoint L (B ∪ E) := s.apart I.wf hLl hLA
  have hL2 := Finset.disjoint_union_right.1 hL
  have sub : ∀ x, S x → ow' x ⊆ B := fun x hx q hq => (hB q).2 ⟨x, hx, hq⟩
  refine ⟨⟨s.wf, ?_, ?_, ?_, ?_, ?_⟩, hL2.2⟩
  · intro y
    by_cases hy : S y
    · exact (m y hy).1
    · obtain ⟨e1, e2, e3⟩ := same y hy
      show EHas (objs' y) (vs' y) h' (ow' y)
      rw [e1, e2, e3]
      exact (EHas.stable _ _).keep I.wf s hAl (hyA y hy) (I.vals y)
  · intro y z hyz
    by_cases hy : S y
    · by_cases hz : S z
      · exact sepS y z hy hz hyz
      · rw [(same z hz).2.2]
        exact (Finset.disjoint_of_subset_right (sub y hy) (Finset.disjoint_union_right.1 (hoth z hz)).1).symm
    · rw [(same y hy).2.2]
      by_cases hz : S z
      · exact Finset.disjoint_of_subset_right (sub z hz) (Finset.disjoint_union_right.1 (hoth y hy)).1
      · rw [(same z hz).2.2]
        exact I.sep y z hyz
  · intro y
    rw [Finset.disjoint_union_right]
    by_cases hy : S y
    · exact ⟨(Finset.disjoint_of_subset_right (sub y hy) hL2.1).symm, Finset.disjoint_of_subset_left (sub y hy) d⟩
    · rw [(same y hy).2.2]
      exact ⟨I.lost y, (Finset.disjoint_union_right.1 (hoth y hy)).2⟩
  · intro q
    show h'.blocks q ≠ none ↔ _
    constructor
    · intro hq
      by_cases hqB : q ∈ B ∪ E
      · rcases Finset.mem_union.1 hqB with hqB | hqE
        · obtain ⟨x, -, hx⟩ := (hB q).1 hqB
          exact Or.inl ⟨x, hx⟩
        · exact Or.inr (Finset.mem_union_right _ hqE)
      · have hn : ¬ (q ∈ A ∨ W.heap.next < q) := fun c => hq (s.dead q c hqB)
        rw [not_or] at hn
        rw [s.other q hn.1 (by omega)] at hq
        rcases (I.live q).1 hq with ⟨x, hx⟩ | hq
        · by_cases hs : S x
          · exact absurd ((hA q).2 ⟨x, hs, hx⟩) hn.1
          · exact Or.inl ⟨x, by rw [(same x hs).2.2]; exact hx⟩
        · exact Or.inr (Finset.mem_union_left _ hq)
    · rintro (⟨x, hx⟩ | hq)
      · by_cases hs : S x
        · exact s.live q (Finset.mem_union_left _ ((hB q).2 ⟨x, hs, hx⟩))
        · rw [(same x hs).2.2] at hx
          exact s.alive I.wf (fun r hr => (I.live r).2 (Or.inl ⟨x, hr⟩)) (hyA x hs) q hx
      · rcases Finset.mem_union.1 hq with hq | hq
        · exact s.alive I.wf hLl hLA q hq
        · exact s.live q (Finset.mem_union_right _ hq)
  · intro y v hv
    by_cases hy : S y
    · exact (m y hy).2 v hv
    · rw [(same y hy).2.1] at hv
      exact I.inv y v hv

/-- One variable gets a new value. -/
theorem EMem.put (I : EMem W vs ow L) {x : Nat} {h' : Heap} {o : Option HElectrumTx} {v : Option (ElectrumTx × Bool)} {B E : Finset Nat} (s : Step W.heap h' (ow x) (B ∪ E))
    (d : Disjoint B E) (m : EHas o v h' B) (hi : ∀ u, v = some u → u.1.Inv u.2) :
    EMem (W.put x o h') (vs.put x v) (owput ow x B) (L ∪ E) ∧ Disjoint L E := by
  refine I.update (fun y => y = x) (A := ow x) (B := B) (by simp) s d (objs' := (W.put x o h').objs) ?_ ?_ ?_ ?_
  · intro y hy
    exact ⟨if_neg hy, if_neg hy, if_neg hy⟩
  · rintro y rfl
    unfold EWorld.put EVals.put owput
    simp only [if_true]
    exact ⟨m, hi⟩
  · intro q
    simp [owput]
  · rintro y z rfl rfl h
    exact absurd rfl h

/-- What one statement does. -/
structure EStep (W : EWorld) (vs : EVals) (L : Finset Nat) (op : EOp) (W' : EWorld) (ow' : Nat → Finset Nat) (E : Finset Nat) : Prop where
  run : W.step op = .ok (W', vs.out op)
  mem : EMem W' (vs.step op) ow' (L ∪ E)
  dis : Disjoint L E
  denies : W'.heap.denies = W.heap.denies
  loss : E.card ≤ elosses vs op

theorem EStep.none (I : EMem W vs ow L) {op : EOp} (h1 : W.step op = .ok (W, .none)) (h2 : vs.step op = vs) (h3 : vs.out op = .none) :
    ∃ W' ow' E, EStep W vs L op W' ow' E :=
  ⟨W, ow, ∅, by rw [h1, h3], by rw [h2, Finset.union_empty]; exact I, by simp, rfl, by simp⟩

theorem estep_ok (I : EMem W vs ow L) (g : W.heap.Generous) (op : EOp) (ok : EAllowed vs op) : ∃ W' ow' E, EStep W vs L op W' ow' E := by
  cases op with
  | new x =>
    rcases I.cases x with ⟨h1, h2, h3⟩ | ⟨o, v, h1, h2, h3⟩
    · obtain ⟨m, d⟩ := I.put (x := x) (h' := W.heap) (o := some {}) (v := some ({}, false)) (B := ∅) (E := ∅) (by rw [h3]; exact Step.refl I.wf (by simp)) (by simp)
        (ElectAt.null rfl) (fun u hu => by injection hu with hu; rw [← hu]; exact ElectrumTx.Inv.null)
      exact ⟨W.put x (some {}) W.heap, _, ∅, by rw [EWorld.step, h1]; rfl, by rw [EVals.step, h2]; exact m, d, rfl, by simp⟩
    · exact EStep.none I (by rw [EWorld.step, h1]) (by rw [EVals.step, h2]) rfl
  | copy x y =>
    rcases I.cases x with ⟨h1, h2, h3⟩ | ⟨o, v, h1, h2, h3⟩
    · rcases I.cases y with ⟨k1, k2, k3⟩ | ⟨o, v, k1, k2, k3⟩
      · exact EStep.none I (by rw [EWorld.step, h1, k1]) (by rw [EVals.step, h2, k2]) rfl
      · have hf := ok v k2
        obtain ⟨o', h', B, e, ⟨B1, C1, m1, ⟨E, B2, l, m2, d2, rfl⟩, d1, rfl⟩, s⟩ := HElectrumTx.copy_does o v.1 v.2 hf W.heap (ow y) I.wf g k3
        have hxy : x ≠ y := by
          rintro rfl
          rw [h1] at k1
          cases k1
        rw [Finset.disjoint_union_right] at d1
        obtain ⟨m, d⟩ := I.update (fun z => z = x ∨ z = y) (A := ow y) (B := B1 ∪ B2) (E := E) (h' := h')
          (objs' := (W.put x (some o') h').objs) (vs' := vs.put x (some (v.1.copied false, false)))
          (ow' := owput (owput ow x B1) y B2)
          (by
            intro q
            constructor
            · intro hq
              exact ⟨y, Or.inr rfl, hq⟩
            · rintro ⟨z, rfl | rfl, hq⟩
              · rw [h3] at hq
                simp at hq
              · exact hq)
          (by
            have : B1 ∪ B2 ∪ E = B1 ∪ (E ∪ B2) := by rw [Finset.union_assoc, Finset.union_comm B2]
            rw [this]
            exact s)
          (by rw [Finset.disjoint_union_left]; exact ⟨d1.1, d2.symm⟩)
          (by
            intro z hz
            rw [not_or] at hz
            refine ⟨if_neg hz.1, if_neg hz.1, ?_⟩
            unfold owput
            rw [if_neg hz.2, if_neg hz.1])
          (by
            rintro z (rfl | rfl)
            · have e1 : (W.put z (some o') h').objs z = some o' := if_pos rfl
              have e2 : owput (owput ow z B1) y B2 z = B1 := by
                unfold owput
                rw [if_neg hxy, if_pos rfl]
              have e3 : ∀ u, vs.put z u z = u := fun u => if_pos rfl
              rw [e1, e2, e3]
              refine ⟨m1, fun u hu => ?_⟩
              injection hu with hu
              rw [← hu]
              exact .copied hf _ _
            · have e1 : (W.put x (some o') h').objs z = some o := (if_neg (Ne.symm hxy)).trans k1
              have e2 : owput (owput ow x B1) z B2 z = B2 := if_pos rfl
              have e3 : ∀ u, vs.put x u z = some v := fun u => (if_neg (Ne.symm hxy)).trans k2
              rw [e1, e2, e3]
              refine ⟨m2, fun u hu => ?_⟩
              injection hu with hu
              rw [← hu]
              exact I.inv z v k2)
          (by
            intro q
            have e1 : owput (owput ow x B1) y B2 x = B1 := by
              unfold owput
              rw [if_neg hxy, if_pos rfl]
            have e2 : owput (owput ow x B1) y B2 y = B2 := if_pos rfl
            constructor
            · intro hq
              rcases Finset.mem_union.1 hq with hq | hq
              · exact ⟨x, Or.inl rfl, by rw [e1]; exact hq⟩
              · exact ⟨y, Or.inr rfl, by rw [e2]; exact hq⟩
            · rintro ⟨z, rfl | rfl, hq⟩
              · rw [e1] at hq
                exact Finset.mem_union_left _ hq
              · rw [e2] at hq
                exact Finset.mem_union_right _ hq)
          (by
            have e1 : owput (owput ow x B1) y B2 x = B1 := by
              unfold owput
              rw [if_neg hxy, if_pos rfl]
            have e2 : owput (owput ow x B1) y B2 y = B2 := if_pos rfl
            rintro z t (rfl | rfl) (rfl | rfl) hzt
            · exact absurd rfl hzt
            · rw [e1, e2]; exact d1.2
            · rw [e1, e2]; exact d1.2.symm
            · exact absurd rfl hzt)
        have ec : v.1.copy = .ok (v.1.copied false) := ElectrumTx.copy_full hf
        refine ⟨W.put x (some o') h', owput (owput ow x B1) y B2, E, ?_, ?_, d, s.denies, ?_⟩
        · rw [EWorld.step, h1, k1]
          dsimp only
          rw [e, C.bind_ok]
          rfl
        · simp only [EVals.step, h2, k2, ec]
          exact m
        · simp only [elosses, h2, k2]
          exact l.2
    · refine EStep.none I ?_ ?_ rfl
      · rw [EWorld.step, h1]
      · rw [EVals.step, h2]
  | assign x y =>
    by_cases hxy : x = y
    · exact EStep.none I (by rw [EWorld.step, if_pos hxy]) (by rw [EVals.step, if_pos hxy]) rfl
    obtain ⟨okv, okw⟩ := ok hxy
    rcases I.cases x with ⟨h1, h2, h3⟩ | ⟨self, w, h1, h2, h3⟩
    · exact EStep.none I (by rw [EWorld.step, if_neg hxy, h1]) (by rw [EVals.step, if_neg hxy, h2]) rfl
    rcases I.cases y with ⟨k1, k2, k3⟩ | ⟨o, v, k1, k2, k3⟩
    · exact EStep.none I (by rw [EWorld.step, if_neg hxy, h1, k1]) (by rw [EVals.step, if_neg hxy, h2, k2]) rfl
    have hf := okv v k2
    obtain ⟨w, wb⟩ := w
    have hwb : wb = false := okw _ h2
    subst hwb
    obtain ⟨o', h', B, e, ⟨B1, C1, m1, ⟨E, B2, l, m2, d2, rfl⟩, d1, rfl⟩, s⟩ :=
      HElectrumTx.assign_does self o w v.1 v.2 hf W.heap (ow x ∪ ow y) I.wf g ⟨ow x, ow y, h3, k3, I.sep x y hxy, rfl⟩
    rw [Finset.disjoint_union_right] at d1
    have ec : w.assign v.1 = .ok (v.1.copied w.isSegwit) := ElectrumTx.assign_full w hf
    have e1 : owput (owput ow x B1) y B2 x = B1 := by
      unfold owput
      rw [if_neg hxy, if_pos rfl]
    have e2 : owput (owput ow x B1) y B2 y = B2 := if_pos rfl
    obtain ⟨m, d⟩ := I.update (fun z => z = x ∨ z = y) (A := ow x ∪ ow y) (B := B1 ∪ B2) (E := E) (h' := h')
      (objs' := (W.put x (some o') h').objs) (vs' := vs.put x (some (v.1.copied w.isSegwit, false)))
      (ow' := owput (owput ow x B1) y B2)
      (by
        intro q
        rw [Finset.mem_union]
        constructor
        · rintro (hq | hq)
          · exact ⟨x, Or.inl rfl, hq⟩
          · exact ⟨y, Or.inr rfl, hq⟩
        · rintro ⟨z, rfl | rfl, hq⟩
          · exact Or.inl hq
          · exact Or.inr hq)
      (by
        have : B1 ∪ B2 ∪ E = B1 ∪ (E ∪ B2) := by rw [Finset.union_assoc, Finset.union_comm B2]
        rw [this]
        exact s)
      (by rw [Finset.disjoint_union_left]; exact ⟨d1.1, d2.symm⟩)
      (by
        intro z hz
        rw [not_or] at hz
        refine ⟨if_neg hz.1, if_neg hz.1, ?_⟩
        unfold owput
        rw [if_neg hz.2, if_neg hz.1])
      (by
        rintro z (rfl | rfl)
        · have f1 : (W.put z (some o') h').objs z = some o' := if_pos rfl
          have f3 : ∀ u, vs.put z u z = u := fun u => if_pos rfl
          rw [f1, e1, f3]
          refine ⟨m1, fun u hu => ?_⟩
          injection hu with hu
          rw [← hu]
          exact .copied hf _ _
        · have f1 : (W.put x (some o') h').objs z = some o := (if_neg (Ne.symm hxy)).trans k1
          have f3 : ∀ u, vs.put x u z = some v := fun u => (if_neg (Ne.symm hxy)).trans k2
          rw [f1, e2, f3]
          refine ⟨m2, fun u hu => ?_⟩
          injection hu with hu
          rw [← hu]
          exact I.inv z v k2)
      (by
        intro q
        constructor
        · intro hq
          rcases Finset.mem_union.1 hq with hq | hq
          · exact ⟨x, Or.inl rfl, by rw [e1]; exact hq⟩
          · exact ⟨y, Or.inr rfl, by rw [e2]; exact hq⟩
        · rintro ⟨z, rfl | rfl, hq⟩
          · rw [e1] at hq
            exact Finset.mem_union_left _ hq
          · rw [e2] at hq
            exact Finset.mem_union_right _ hq)
      (by
        rintro z t (rfl | rfl) (rfl | rfl) hzt
        · exact absurd rfl hzt
        · rw [e1, e2]; exact d1.2
        · rw [e1, e2]; exact d1.2.symm
        · exact absurd rfl hzt)
    refine ⟨W.put x (some o') h', owput (owput ow x B1) y B2, E, ?_, ?_, d, s.denies, ?_⟩
    · rw [EWorld.step, if_neg hxy, h1, k1]
      dsimp only
      rw [e, C.bind_ok]
      rfl
    · simp only [EVals.step, if_neg hxy, h2, k2, ec]
      exact m
    · simp only [elosses, if_neg hxy, h2, k2]
      exact l.2
  | parse x junk fuel s =>
    rcases I.cases x with ⟨h1, h2, h3⟩ | ⟨o, v, h1, h2, h3⟩
    · exact EStep.none I (by rw [EWorld.step, h1]) (by rw [EVals.step, h2]) (by rw [EVals.out, h2]; rfl)
    obtain ⟨⟨r, hr, hub⟩, hb⟩ := ok v h2
    have hi := (I.inv x v h2).fromStream hb junk fuel s hr hub
    obtain ⟨y, h', B, e, ⟨o', rfl, B1, E, m1, l, d1, rfl⟩, st⟩ := HElectrumTx.fromStream_does junk fuel o v.1 v.2 s (I.inv x v h2) hb hr hub W.heap (ow x) I.wf g h3
    obtain ⟨m, d⟩ := I.put (x := x) (h' := h') (o := some o') (v := some (r.1, v.2 || v.1.spoils s)) (B := B1) (E := E) st d1 m1
      (fun u hu => by injection hu with hu; rw [← hu]; exact hi)
    have es : o'.status = r.1.status := by
      obtain ⟨u, a, -⟩ := m1
      obtain ⟨⟨e, -⟩, -⟩ := fact_star.1 a
      rw [e]
    refine ⟨W.put x (some o') h', owput ow x B1, E, ?_, ?_, d, st.denies, ?_⟩
    · rw [EWorld.step, h1]
      dsimp only
      rw [e, C.bind_ok]
      dsimp only
      rw [EVals.out, h2, es]
      show _ = C.ok (_, Option.map _ (v.1.fromStream junk fuel s))
      rw [hr]
      rfl
    · simp only [EVals.step, h2, hr]
      exact m
    · rw [elosses, h2]
      exact l.2
  | destroy x =>
    rcases I.cases x with ⟨h1, h2, h3⟩ | ⟨o, v, h1, h2, h3⟩
    · exact EStep.none I (by rw [EWorld.step, h1]) (by rw [EVals.step, h2]) rfl
    obtain ⟨v, vb⟩ := v
    have hvb : vb = false := ok _ h2
    subst hvb
    obtain ⟨u, h', B, e, a, st⟩ := HElectrumTx.destroy_does o v W.heap (ow x) I.wf g h3
    have hB : B = ∅ := a
    subst hB
    obtain ⟨m, d⟩ := I.put (x := x) (h' := h') (o := .none) (v := .none) (B := ∅) (E := ∅) (by simpa using st) (by simp) rfl (fun u hu => by cases hu)
    refine ⟨W.put x .none h', owput ow x ∅, ∅, ?_, ?_, d, st.denies, by simp⟩
    · rw [EWorld.step, h1]
      dsimp only
      rw [e, C.bind_ok]
      rfl
    · rw [EVals.step, h2]
      exact m

theorem EMem.view (I : EMem W vs ow L) {x : Nat} {v : ElectrumTx × Bool} (hv : vs x = some v) (hf : v.1.tx.AllDone) (hm : v.1.tx.txIns.length ≤ v.1.metas.length) :
    W.view x = .ok (viewElectrum v.1) := by
  rcases I.cases x with ⟨-, e, -⟩ | ⟨o, u, e1, e2, a⟩
  · rw [hv] at e; cases e
  rw [hv] at e2
  injection e2 with e2
  subst e2
  rw [EWorld.view, e1]
  exact HElectrumTx.view_at I.wf a hf hm

end UB
