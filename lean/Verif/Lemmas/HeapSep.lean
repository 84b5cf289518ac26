import Verif.Model.HeapTx
import Verif.Lemmas.HeapParse
import Verif.Lemmas.HeapWitness
import Mathlib.Data.Finset.Card

/-! Statements about the heap together with the set of blocks they are about, and scripts and witnesses in these terms. -/

namespace UB
open Heap

theorem C.ok_inv {α β : Type} {x : C α} {f : α → C β} {b : β} (h : (x >>= f) = .ok b) : ∃ a, x = .ok a ∧ f a = .ok b := by
  cases x with
  | ub => cases h
  | ok a => exact ⟨a, rfl, h⟩

namespace Heap

/-- A statement about the heap which involves the blocks of a set. -/
abbrev HProp := Heap → Finset Nat → Prop

/-- The statement is about allocated blocks, and remains true when other code runs. -/
structure Stable (P : HProp) : Prop where
  live : ∀ {h : Heap} {A : Finset Nat}, P h A → ∀ q ∈ A, h.blocks q ≠ none
  keep : ∀ {h h' : Heap} {A A' B' : Finset Nat}, h.Wf → Step h h' A' B' → (∀ q ∈ A', h.blocks q ≠ none) → Disjoint A A' → P h A → P h' A

theorem Step.apart {h h' : Heap} {A B D : Finset Nat} (s : Step h h' A B) (w : h.Wf) (hl : ∀ q ∈ D, h.blocks q ≠ none) (hd : Disjoint D A) :
    Disjoint D B := by
  rw [Finset.disjoint_left] at hd ⊢
  intro q hq
  cases hb : h.blocks q with
  | none => exact absurd hb (hl q hq)
  | some b => exact s.notIn w (hd hq) hb

theorem Step.alive {h h' : Heap} {A B D : Finset Nat} (s : Step h h' A B) (w : h.Wf) (hl : ∀ q ∈ D, h.blocks q ≠ none) (hd : Disjoint D A) :
    ∀ q ∈ D, h'.blocks q ≠ none := by
  intro q hq
  cases hb : h.blocks q with
  | none => exact absurd hb (hl q hq)
  | some b =>
    rw [s.keep w (Finset.disjoint_left.1 hd hq) hb]
    simp

/-- Code responsible for `A`, then code responsible for `D`. -/
theorem Step.par {h h1 h2 : Heap} {A B D E : Finset Nat} (s1 : Step h h1 A B) (s2 : Step h1 h2 D E) (w : h.Wf)
    (hl : ∀ q ∈ D, h.blocks q ≠ none) (hd : Disjoint A D) : Step h h2 (A ∪ D) (B ∪ E) ∧ Disjoint B E := by
  have dBD : Disjoint D B := s1.apart w hl hd.symm
  have f1 := s1.frame w D (fun q hq hc => Finset.disjoint_left.1 hd hc hq) hl
  have f2 := s2.frame s1.wf B (fun q hq hc => Finset.disjoint_left.1 dBD hc hq) s1.live
  rw [Finset.union_comm D B, Finset.union_comm E B] at f2
  exact ⟨f1.trans f2, s2.apart s1.wf s1.live dBD.symm⟩

/-- Code that creates `B`, then code that creates `E`. -/
theorem Step.new2 {h h1 h2 : Heap} {B E : Finset Nat} (s1 : Step h h1 ∅ B) (s2 : Step h1 h2 ∅ E) (w : h.Wf) :
    Step h h2 ∅ (B ∪ E) ∧ Disjoint B E := by
  have := s1.par s2 w (by simp) (by simp)
  simpa using this

/-- Code that gives back `A`, then code that gives back `D`. -/
theorem Step.gone2 {h h1 h2 : Heap} {A D : Finset Nat} (s1 : Step h h1 A ∅) (s2 : Step h1 h2 D ∅) (w : h.Wf)
    (hl : ∀ q ∈ D, h.blocks q ≠ none) (hd : Disjoint A D) : Step h h2 (A ∪ D) ∅ := by
  have := (s1.par s2 w hl hd).1
  simpa using this

/-- Code that creates `B`, changes `A` to `D` and then gives `B` back. -/
theorem Step.during {h h1 h2 h3 : Heap} {A B D : Finset Nat} (w : h.Wf) (s1 : Step h h1 ∅ B) (s2 : Step h1 h2 A D) (s3 : Step h2 h3 B ∅)
    (hl : ∀ q ∈ A, h.blocks q ≠ none) : Step h h3 A D ∧ Disjoint B D := by
  have d1 : Disjoint A B := s1.apart w hl (by simp)
  have hl1 : ∀ q ∈ A, h1.blocks q ≠ none := s1.alive w hl (by simp)
  have h12 := (s1.par s2 w hl (by simp)).1
  have d2 : Disjoint B D := s2.apart s1.wf s1.live d1.symm
  have h3' := s3.frame s2.wf D (fun q hq hc => Finset.disjoint_left.1 d2 hc hq) s2.live
  rw [Finset.empty_union] at h12
  rw [Finset.empty_union] at h3'
  exact ⟨h12.trans h3', d2⟩

/-- Code that creates `B` (while `A` exists), then code that gives back `A`. -/
theorem Step.replace {h h1 h2 : Heap} {A B : Finset Nat} (w : h.Wf) (s1 : Step h h1 ∅ B) (s2 : Step h1 h2 A ∅)
    (hl : ∀ q ∈ A, h.blocks q ≠ none) : Step h h2 A B ∧ Disjoint A B := by
  have d1 : Disjoint A B := s1.apart w hl (by simp)
  have h12 := (s1.par s2 w hl (by simp)).1
  simpa using And.intro h12 d1

/-- `new`. -/
theorem new_ok {h : Heap} (w : h.Wf) : Step h h.new.2 ∅ {h.new.1} ∧ h.new.2.blocks h.new.1 = some [] ∧ h.new.1 ≠ 0 := by
  refine ⟨⟨⟨?_, ?_, ?_⟩, by simp [Heap.new], rfl, ?_, ?_, ?_, ?_⟩, by simp [Heap.new, set], by simp [Heap.new]⟩
  · simp [Heap.new, set, w.null]
  · intro q hq
    have : q ≠ h.next + 1 := by rintro rfl; simp [Heap.new] at hq
    simp only [Heap.new, set, if_neg this]
    exact w.fresh q (by simp [Heap.new] at hq; omega)
  · intro g q b hb
    by_cases e : q = h.next + 1
    · simp only [Heap.new, set, if_pos e, Option.some.injEq] at hb
      rw [← hb]
      simp
    · simp only [Heap.new, set, if_neg e] at hb
      exact w.small g q b hb
  · intro q _ hq
    have : q ≠ h.next + 1 := by omega
    simp only [Heap.new, set, if_neg this]
  · intro q hq
    rw [Finset.mem_singleton] at hq
    right; rw [hq]; simp [Heap.new]
  · intro q hq
    rw [Finset.mem_singleton] at hq
    rw [hq]
    simp [Heap.new, set]
  · intro q hq hn
    have : q ≠ h.next + 1 := by rintro rfl; exact hn (by simp [Heap.new])
    simp only [Heap.new, set, if_neg this]
    exact w.fresh q (by simpa using hq)

theorem new_get {h : Heap} (w : h.Wf) : ∃ p h', h.new = (p, h') ∧ Step h h' ∅ {p} ∧ h'.blocks p ≠ none :=
  ⟨h.new.1, h.new.2, rfl, (new_ok w).1, by rw [(new_ok w).2.1]; simp⟩

theorem access_ok {h : Heap} {p n : Nat} (hp : n > 0 → h.blocks p ≠ none) : h.access p n = .ok () := by
  unfold access
  rw [if_neg (fun c => hp c.1 c.2)]

/-- Blocks that nothing refers to. -/
def Lost (n : Nat) : HProp := fun h A => (∀ q ∈ A, h.blocks q ≠ none) ∧ A.card = n

/-- A list of objects with a list of values, each with blocks of its own. -/
def EachAt {α β : Type} (P : α → β → HProp) : List α → List β → HProp
  | [], [], _, A => A = ∅
  | o :: os, v :: vs, h, A => ∃ A1 A2, P o v h A1 ∧ EachAt P os vs h A2 ∧ Disjoint A1 A2 ∧ A = A1 ∪ A2
  | _, _, _, _ => False

theorem EachAt.stable {α β : Type} {P : α → β → HProp} (st : ∀ o v, Stable (P o v)) : ∀ os vs, Stable (EachAt P os vs) := by
  intro os
  induction os with
  | nil =>
    intro vs
    cases vs with
    | nil => exact ⟨fun h q hq => by rw [h] at hq; simp at hq, fun _ _ _ _ h => h⟩
    | cons v vs => exact ⟨fun h => h.elim, fun _ _ _ _ h => h.elim⟩
  | cons o os ih =>
    intro vs
    cases vs with
    | nil => exact ⟨fun h => h.elim, fun _ _ _ _ h => h.elim⟩
    | cons v vs =>
      refine ⟨?_, ?_⟩
      · rintro h A ⟨A1, A2, h1, h2, hd, rfl⟩ q hq
        rcases Finset.mem_union.1 hq with hq | hq
        · exact (st o v).live h1 q hq
        · exact (ih vs).live h2 q hq
      · rintro h h' A A' B' w s hl d ⟨A1, A2, h1, h2, hd, rfl⟩
        rw [Finset.disjoint_union_left] at d
        exact ⟨A1, A2, (st o v).keep w s hl d.1 h1, (ih vs).keep w s hl d.2 h2, hd, rfl⟩

theorem EachAt.length {α β : Type} {P : α → β → HProp} : ∀ {os : List α} {vs : List β} {h : Heap} {A : Finset Nat}, EachAt P os vs h A →
    os.length = vs.length := by
  intro os
  induction os with
  | nil => intro vs h A e; cases vs with
    | nil => rfl
    | cons _ _ => exact e.elim
  | cons o os ih => intro vs h A e; cases vs with
    | nil => exact e.elim
    | cons v vs =>
      obtain ⟨A1, A2, -, e2, -⟩ := e
      simp [ih e2]

theorem EachAt.append {α β : Type} {P : α → β → HProp} : ∀ {os : List α} {vs : List β} {os' : List α} {vs' : List β} {h : Heap} {A A' : Finset Nat},
    EachAt P os vs h A → EachAt P os' vs' h A' → Disjoint A A' → EachAt P (os ++ os') (vs ++ vs') h (A ∪ A') := by
  intro os
  induction os with
  | nil => intro vs os' vs' h A A' e e' d; cases vs with
    | nil => rw [show A = ∅ from e]; simpa using e'
    | cons _ _ => exact e.elim
  | cons o os ih => intro vs os' vs' h A A' e e' d; cases vs with
    | nil => exact e.elim
    | cons v vs =>
      obtain ⟨A1, A2, h1, h2, hd, rfl⟩ := e
      rw [Finset.disjoint_union_left] at d
      refine ⟨A1, A2 ∪ A', h1, ih h2 e' d.2, ?_, Finset.union_assoc _ _ _⟩
      rw [Finset.disjoint_union_right]
      exact ⟨hd, d.1⟩

theorem EachAt.single {α β : Type} {P : α → β → HProp} {o : α} {v : β} {h : Heap} {A : Finset Nat} (e : P o v h A) : EachAt P [o] [v] h A :=
  ⟨A, ∅, e, rfl, by simp, by simp⟩

theorem EachAt.get {α β : Type} {P : α → β → HProp} : ∀ {os : List α} {vs : List β} {h : Heap} {A : Finset Nat}, EachAt P os vs h A →
    ∀ {i : Nat} {o : α}, os[i]? = some o → ∃ v A1 A2, vs[i]? = some v ∧ P o v h A1 ∧ Disjoint A1 A2 ∧ A = A1 ∪ A2 := by
  intro os
  induction os with
  | nil => intro vs h A _ i o ho; simp at ho
  | cons x os ih =>
    intro vs h A e i o ho
    cases vs with
    | nil => exact e.elim
    | cons v vs =>
      obtain ⟨A1, A2, h1, h2, hd, rfl⟩ := e
      cases i with
      | zero =>
        simp only [List.getElem?_cons_zero, Option.some.injEq] at ho
        subst ho
        exact ⟨v, A1, A2, by simp, h1, hd, rfl⟩
      | succ i =>
        obtain ⟨v', B1, B2, g1, g2, g3, rfl⟩ := ih h2 (by simpa using ho)
        rw [Finset.disjoint_union_right] at hd
        refine ⟨v', B1, A1 ∪ B2, by simpa using g1, g2, ?_, ?_⟩
        · rw [Finset.disjoint_union_right]
          exact ⟨hd.1.symm, g3⟩
        · rw [← Finset.union_assoc, ← Finset.union_assoc, Finset.union_comm A1 B1]

/-- One element of a list of objects changes. -/
theorem EachAt.update {α β : Type} {P : α → β → HProp} (st : ∀ o v, Stable (P o v)) : ∀ {os : List α} {vs : List β} {h : Heap} {A : Finset Nat}, h.Wf →
    EachAt P os vs h A → ∀ {i : Nat} {o : α} {v : β}, os[i]? = some o → vs[i]? = some v →
    ∃ A1 A2, P o v h A1 ∧ Disjoint A1 A2 ∧ A = A1 ∪ A2 ∧ ∀ {h' : Heap} {o' : α} {v' : β} {B : Finset Nat}, Step h h' A1 B → P o' v' h' B →
      EachAt P (os.set i o') (vs.set i v') h' (B ∪ A2) := by
  intro os
  induction os with
  | nil => intro vs h A _ _ i o v ho; simp at ho
  | cons x os ih =>
    intro vs h A w e i o v ho hv
    cases vs with
    | nil => exact e.elim
    | cons y vs =>
      obtain ⟨A1, A2, h1, h2, hd, rfl⟩ := e
      cases i with
      | zero =>
        simp only [List.getElem?_cons_zero, Option.some.injEq] at ho hv
        subst ho hv
        refine ⟨A1, A2, h1, hd, rfl, fun {h' o' v' B} s p => ?_⟩
        simp only [List.set_cons_zero]
        exact ⟨B, A2, p, (EachAt.stable st _ _).keep w s ((st _ _).live h1) hd.symm h2, (s.apart w ((EachAt.stable st _ _).live h2) hd.symm).symm, rfl⟩
      | succ i =>
        obtain ⟨B1, B2, g1, g2, rfl, g3⟩ := ih w h2 (by simpa using ho) (by simpa using hv)
        rw [Finset.disjoint_union_right] at hd
        refine ⟨B1, A1 ∪ B2, g1, ?_, ?_, fun {h' o' v' B} s p => ?_⟩
        · rw [Finset.disjoint_union_right]
          exact ⟨hd.1.symm, g2⟩
        · rw [← Finset.union_assoc, ← Finset.union_assoc, Finset.union_comm A1 B1]
        · simp only [List.set_cons_succ]
          have k1 := (st x y).keep w s ((st o v).live g1) hd.1 h1
          have dB : Disjoint A1 B := s.apart w ((st x y).live h1) hd.1
          refine ⟨A1, B ∪ B2, k1, g3 s p, ?_, ?_⟩
          · rw [Finset.disjoint_union_right]
            exact ⟨dB, hd.2⟩
          · rw [← Finset.union_assoc, ← Finset.union_assoc, Finset.union_comm A1 B]

/-- The loop that fills a new array with copies. -/
theorem eachH_ok {α β : Type} {P : α → β → HProp} (st : ∀ o v, Stable (P o v)) {f : α → Heap → C (α × Heap)} {g : β → β} {Q R S : β → Prop}
    (hf : ∀ {h : Heap} {o : α} {v : β} {A : Finset Nat}, h.Wf → P o v h A → Q v →
      ∃ o' v' h' B, f o h = .ok (o', h') ∧ P o' v' h' B ∧ R v' ∧ Step h h' ∅ B ∧ (h.Generous → S v → v' = g v)) :
    ∀ {os : List α} {vs : List β} {h : Heap} {A : Finset Nat}, h.Wf → EachAt P os vs h A → (∀ v ∈ vs, Q v) →
      ∃ os' vs' h' B, eachH f os h = .ok (os', h') ∧ EachAt P os' vs' h' B ∧ ((∀ v ∈ vs', R v) ∧ vs'.length = vs.length) ∧ Step h h' ∅ B ∧
        (h.Generous → (∀ v ∈ vs, S v) → vs' = vs.map g) := by
  intro os
  induction os with
  | nil =>
    intro vs h A w e hq
    cases vs with
    | cons _ _ => exact e.elim
    | nil => exact ⟨[], [], h, ∅, rfl, rfl, ⟨by simp, rfl⟩, Step.refl w (by simp), fun _ _ => rfl⟩
  | cons o os ih =>
    intro vs h A w e hq
    cases vs with
    | nil => exact e.elim
    | cons v vs =>
      obtain ⟨A1, A2, h1, h2, hd, rfl⟩ := e
      obtain ⟨o', v', hp, B, e1, p1, r1, s1, g1⟩ := hf w h1 (hq v (by simp))
      have h2' := (EachAt.stable st os vs).keep w s1 (by simp) (by simp) h2
      obtain ⟨os', vs', hp2, B2, e2, p2, r2, s2, g2⟩ := ih s1.wf h2' (fun v hv => hq v (by simp [hv]))
      obtain ⟨s3, d3⟩ := s1.new2 s2 w
      refine ⟨o' :: os', v' :: vs', hp2, B ∪ B2, ?_, ⟨B, B2, (st o' v').keep s1.wf s2 (by simp) (by simp) p1, p2, d3, rfl⟩, ⟨?_, by simp [r2.2]⟩, s3, ?_⟩
      · rw [eachH, e1, C.bind_ok]
        dsimp only
        rw [e2, C.bind_ok]
        rfl
      · intro x hx
        rcases List.mem_cons.1 hx with rfl | hx
        · exact r1
        · exact r2.1 x hx
      · intro gg hs
        rw [g1 gg (hs v (by simp)), g2 (s1.generous gg) (fun v hv => hs v (by simp [hv]))]
        rfl

/-- The destructors of the elements of an array. -/
theorem destroyEach_ok {α β : Type} {P : α → β → HProp} (st : ∀ o v, Stable (P o v)) {d : α → Heap → C Heap} {Q : β → Prop}
    (hf : ∀ {h : Heap} {o : α} {v : β} {A : Finset Nat}, h.Wf → P o v h A → Q v → ∃ h', d o h = .ok h' ∧ Step h h' A ∅) :
    ∀ {os : List α} {vs : List β} {h : Heap} {A : Finset Nat}, h.Wf → EachAt P os vs h A → (∀ v ∈ vs, Q v) →
      ∃ h', destroyEach d os h = .ok h' ∧ Step h h' A ∅ := by
  intro os
  induction os with
  | nil =>
    intro vs h A w e hq
    cases vs with
    | cons _ _ => exact e.elim
    | nil =>
      rw [show A = ∅ from e]
      exact ⟨h, rfl, Step.refl w (by simp)⟩
  | cons o os ih =>
    intro vs h A w e hq
    cases vs with
    | nil => exact e.elim
    | cons v vs =>
      obtain ⟨A1, A2, h1, h2, hd, rfl⟩ := e
      obtain ⟨hp, e1, s1⟩ := ih w h2 (fun v hv => hq v (by simp [hv]))
      have h1' := (st o v).keep w s1 ((EachAt.stable st os vs).live h2) hd h1
      obtain ⟨hp2, e2, s2⟩ := hf s1.wf h1' (hq v (by simp))
      refine ⟨hp2, ?_, ?_⟩
      · rw [destroyEach, e1, C.bind_ok]
        exact e2
      · rw [Finset.union_comm]
        exact s1.gone2 s2 w ((st o v).live h1) hd.symm

/-- If one of the destructors is a memory error then so is deleting the array. -/
theorem destroyEach_ub {α β : Type} {P : α → β → HProp} (st : ∀ o v, Stable (P o v)) {d : α → Heap → C Heap} {Q : β → Prop}
    (hf : ∀ {h : Heap} {o : α} {v : β} {A : Finset Nat}, h.Wf → P o v h A → Q v → ∃ h', d o h = .ok h' ∧ Step h h' A ∅)
    (hn : ∀ {h : Heap} {o : α} {v : β} {A : Finset Nat}, h.Wf → P o v h A → ¬ Q v → d o h = .ub) :
    ∀ {os : List α} {vs : List β} {h : Heap} {A : Finset Nat}, h.Wf → EachAt P os vs h A → (∃ v ∈ vs, ¬ Q v) → destroyEach d os h = .ub := by
  intro os
  induction os with
  | nil =>
    intro vs h A w e hq
    cases vs with
    | cons _ _ => exact e.elim
    | nil => obtain ⟨v, hv, -⟩ := hq; simp at hv
  | cons o os ih =>
    intro vs h A w e hq
    cases vs with
    | nil => exact e.elim
    | cons v vs =>
      obtain ⟨A1, A2, h1, h2, hd, rfl⟩ := e
      by_cases hr : ∃ v ∈ vs, ¬ Q v
      · rw [destroyEach, ih w h2 hr]
        rfl
      · push Not at hr
        obtain ⟨hp, e1, s1⟩ := destroyEach_ok st hf w h2 hr
        have h1' := (st o v).keep w s1 ((EachAt.stable st os vs).live h2) hd h1
        have hv : ¬ Q v := by
          obtain ⟨u, hu, hnu⟩ := hq
          rcases List.mem_cons.1 hu with rfl | hu
          · exact hnu
          · exact absurd (hr u hu) hnu
        rw [destroyEach, e1, C.bind_ok]
        exact hn s1.wf h1' hv

/-- An array with elements: the block and the elements. Of an array without elements nothing is known. -/
def ArrAt {α β : Type} (P : α → β → HProp) (p : Nat) (os : List α) (vs : List β) : HProp := fun h A =>
  ∃ A', EachAt P os vs h A' ∧ (os = [] → A = ∅) ∧ (os ≠ [] → h.blocks p ≠ none ∧ p ∉ A' ∧ A = insert p A')

theorem ArrAt.nil {α β : Type} {P : α → β → HProp} (p : Nat) (h : Heap) : ArrAt P p [] [] h ∅ := ⟨∅, rfl, fun _ => rfl, fun c => absurd rfl c⟩

theorem ArrAt.cases {α β : Type} {P : α → β → HProp} {p : Nat} {os : List α} {vs : List β} {h : Heap} {A : Finset Nat} (a : ArrAt P p os vs h A) :
    (os = [] ∧ vs = [] ∧ A = ∅) ∨ (os ≠ [] ∧ vs ≠ [] ∧ ∃ A', EachAt P os vs h A' ∧ h.blocks p ≠ none ∧ p ∉ A' ∧ A = insert p A') := by
  obtain ⟨A', e, h1, h2⟩ := a
  have hl := e.length
  by_cases ho : os = []
  · subst ho
    exact Or.inl ⟨rfl, List.length_eq_zero_iff.1 hl.symm, h1 rfl⟩
  · refine Or.inr ⟨ho, ?_, A', e, h2 ho⟩
    rintro rfl
    exact ho (List.length_eq_zero_iff.1 hl)

theorem ArrAt.stable {α β : Type} {P : α → β → HProp} (st : ∀ o v, Stable (P o v)) (p : Nat) (os : List α) (vs : List β) : Stable (ArrAt P p os vs) := by
  refine ⟨?_, ?_⟩
  · intro h A a q hq
    rcases a.cases with ⟨-, -, rfl⟩ | ⟨-, -, A', e, hp, -, rfl⟩
    · simp at hq
    · rcases Finset.mem_insert.1 hq with rfl | hq
      · exact hp
      · exact (EachAt.stable st os vs).live e q hq
  · intro h h' A A' B' w s hl d a
    rcases a.cases with ⟨rfl, rfl, rfl⟩ | ⟨ho, -, A1, e, hp, hn, rfl⟩
    · exact ArrAt.nil p h'
    · have d2 : Disjoint A1 A' := Finset.disjoint_of_subset_left (Finset.subset_insert _ _) d
      have hp' : p ∉ A' := Finset.disjoint_left.1 d (Finset.mem_insert_self _ _)
      refine ⟨A1, (EachAt.stable st os vs).keep w s hl d2 e, fun c => absurd c ho, fun _ => ⟨?_, hn, rfl⟩⟩
      cases hb : h.blocks p with
      | none => exact absurd hb hp
      | some b => rw [s.keep w hp' hb]; simp

theorem ArrAt.each {α β : Type} {P : α → β → HProp} {p : Nat} {os : List α} {vs : List β} {h : Heap} {A : Finset Nat} (a : ArrAt P p os vs h A) :
    ∃ A', EachAt P os vs h A' ∧ A' ⊆ A := by
  obtain ⟨A', e, h1, h2⟩ := a
  refine ⟨A', e, ?_⟩
  by_cases ho : os = []
  · have hl := e.length
    subst ho
    rw [List.length_eq_zero_iff.1 hl.symm] at e
    rw [show A' = ∅ from e]
    simp
  · rw [(h2 ho).2.2]
    exact Finset.subset_insert _ _

theorem ArrAt.access {α β : Type} {P : α → β → HProp} {p : Nat} {os : List α} {vs : List β} {h : Heap} {A : Finset Nat} (a : ArrAt P p os vs h A) :
    h.access p os.length = .ok () := by
  rcases a.cases with ⟨rfl, -, -⟩ | ⟨-, -, -, -, hp, -, -⟩
  · exact access_ok (by simp)
  · exact access_ok fun _ => hp

theorem ArrAt.length {α β : Type} {P : α → β → HProp} {p : Nat} {os : List α} {vs : List β} {h : Heap} {A : Finset Nat} (a : ArrAt P p os vs h A) :
    os.length = vs.length := by
  obtain ⟨A', e, -⟩ := a
  exact e.length

/-- `delete []` of an array with elements, as the code does it. -/
theorem deleteArray_ok {α β : Type} {P : α → β → HProp} (st : ∀ o v, Stable (P o v)) {d : α → Heap → C Heap} {Q : β → Prop}
    (hf : ∀ {h : Heap} {o : α} {v : β} {A : Finset Nat}, h.Wf → P o v h A → Q v → ∃ h', d o h = .ok h' ∧ Step h h' A ∅)
    {p : Nat} {os : List α} {vs : List β} {h : Heap} {A : Finset Nat} (w : h.Wf) (a : ArrAt P p os vs h A) (hq : ∀ v ∈ vs, Q v) :
    ∃ h', deleteSome d p os h = .ok h' ∧ Step h h' A ∅ := by
  unfold deleteSome
  rcases a.cases with ⟨rfl, -, rfl⟩ | ⟨ho, hv, A', e, hp, hn, rfl⟩
  · exact ⟨h, rfl, Step.refl w (by simp)⟩
  · rw [if_pos (by simpa using List.length_pos_iff.2 ho)]
    obtain ⟨h1, e1, s1⟩ := destroyEach_ok st hf w e hq
    have hp1 : h1.blocks p ≠ none := s1.alive w (D := {p}) (by simpa using hp) (by simpa using hn) p (by simp)
    obtain ⟨b, hb⟩ := Option.ne_none_iff_exists'.1 hp1
    obtain ⟨h2, e2, s2⟩ := free_ok s1.wf (Or.inr ⟨b, hb⟩)
    rw [own_pos (s1.wf.ne hb)] at s2
    refine ⟨h2, ?_, ?_⟩
    · unfold deleteArray
      rw [a.access, C.bind_ok, e1, C.bind_ok]
      exact e2
    · have := s1.gone2 s2 w (by simpa using hp) (by simpa using hn)
      rwa [Finset.union_comm, ← Finset.insert_eq] at this

theorem deleteArray_ub {α β : Type} {P : α → β → HProp} (st : ∀ o v, Stable (P o v)) {d : α → Heap → C Heap} {Q : β → Prop}
    (hf : ∀ {h : Heap} {o : α} {v : β} {A : Finset Nat}, h.Wf → P o v h A → Q v → ∃ h', d o h = .ok h' ∧ Step h h' A ∅)
    (hn : ∀ {h : Heap} {o : α} {v : β} {A : Finset Nat}, h.Wf → P o v h A → ¬ Q v → d o h = .ub)
    {p : Nat} {os : List α} {vs : List β} {h : Heap} {A : Finset Nat} (w : h.Wf) (a : ArrAt P p os vs h A) (hq : ∃ v ∈ vs, ¬ Q v) :
    deleteSome d p os h = .ub := by
  unfold deleteSome
  rcases a.cases with ⟨-, rfl, -⟩ | ⟨ho, hv, A', e, hp, -, rfl⟩
  · obtain ⟨v, hv, -⟩ := hq; simp at hv
  · rw [if_pos (by simpa using List.length_pos_iff.2 ho)]
    unfold deleteArray
    rw [a.access, C.bind_ok, destroyEach_ub st hf hn w e hq]
    rfl

end Heap
end UB
