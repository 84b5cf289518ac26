import Verif.Model.HeapPSBT
import Verif.Lemmas.HeapTxParse2

/-! Statements about parts of the heap, combined with a separating conjunction, and rules for code that changes only its part. -/

namespace UB
open Heap

namespace Heap

/-- Both statements, about different blocks. -/
def Star (P Q : HProp) : HProp := fun h A => ∃ A1 A2, P h A1 ∧ Q h A2 ∧ Disjoint A1 A2 ∧ A = A1 ∪ A2

infixr:67 " ⋆ " => Star

/-- No block. -/
def emp : HProp := fun _ A => A = ∅

/-- A statement that is not about the heap. -/
def fact (p : Prop) : HProp := fun _ A => p ∧ A = ∅

/-- One block. -/
def Block (p : Nat) : HProp := fun h A => h.blocks p ≠ none ∧ A = {p}

/-- One block, or none. -/
def BlockIf (c : Prop) [Decidable c] (p : Nat) : HProp := if c then Block p else emp

/-- At most `n` blocks that nothing refers to. -/
def LostLe (n : Nat) : HProp := fun h A => (∀ q ∈ A, h.blocks q ≠ none) ∧ A.card ≤ n

theorem Star.comm (P Q : HProp) : P ⋆ Q = Q ⋆ P := by
  funext h A
  apply propext
  constructor
  · rintro ⟨A1, A2, h1, h2, d, rfl⟩
    exact ⟨A2, A1, h2, h1, d.symm, Finset.union_comm _ _⟩
  · rintro ⟨A1, A2, h1, h2, d, rfl⟩
    exact ⟨A2, A1, h2, h1, d.symm, Finset.union_comm _ _⟩

theorem Star.assoc (P Q R : HProp) : (P ⋆ Q) ⋆ R = P ⋆ Q ⋆ R := by
  funext h A
  apply propext
  constructor
  · rintro ⟨-, A3, ⟨A1, A2, h1, h2, d, rfl⟩, h3, d', rfl⟩
    rw [Finset.disjoint_union_left] at d'
    exact ⟨A1, A2 ∪ A3, h1, ⟨A2, A3, h2, h3, d'.2, rfl⟩, Finset.disjoint_union_right.2 ⟨d, d'.1⟩, Finset.union_assoc _ _ _⟩
  · rintro ⟨A1, -, h1, ⟨A2, A3, h2, h3, d, rfl⟩, d', rfl⟩
    rw [Finset.disjoint_union_right] at d'
    exact ⟨A1 ∪ A2, A3, ⟨A1, A2, h1, h2, d'.1, rfl⟩, h3, Finset.disjoint_union_left.2 ⟨d'.2, d⟩, (Finset.union_assoc _ _ _).symm⟩

instance : Std.Commutative Star := ⟨Star.comm⟩
instance : Std.Associative Star := ⟨Star.assoc⟩

theorem Star.left_comm (P Q R : HProp) : P ⋆ Q ⋆ R = Q ⋆ P ⋆ R := by
  rw [← Star.assoc, Star.comm P, Star.assoc]

@[simp] theorem emp_star (P : HProp) : emp ⋆ P = P := by
  funext h A
  apply propext
  constructor
  · rintro ⟨A1, A2, rfl, h2, -, rfl⟩
    simpa using h2
  · intro hp
    exact ⟨∅, A, rfl, hp, by simp, by simp⟩

@[simp] theorem star_emp (P : HProp) : P ⋆ emp = P := by rw [Star.comm, emp_star]

theorem fact_true {p : Prop} (h : p) : fact p = emp := by
  funext h' A
  simp [fact, emp, h]

theorem fact_star {p : Prop} {P : HProp} {h : Heap} {A : Finset Nat} : (fact p ⋆ P) h A ↔ p ∧ P h A := by
  constructor
  · rintro ⟨A1, A2, ⟨hp, rfl⟩, h2, -, rfl⟩
    exact ⟨hp, by simpa using h2⟩
  · rintro ⟨hp, h2⟩
    exact ⟨∅, A, ⟨hp, rfl⟩, h2, by simp, by simp⟩

theorem star_mono {P P' Q Q' : HProp} (h1 : ∀ {h A}, P h A → P' h A) (h2 : ∀ {h A}, Q h A → Q' h A) {h : Heap} {A : Finset Nat} :
    (P ⋆ Q) h A → (P' ⋆ Q') h A := by
  rintro ⟨A1, A2, a1, a2, d, rfl⟩
  exact ⟨A1, A2, h1 a1, h2 a2, d, rfl⟩

theorem Stable.star {P Q : HProp} (s1 : Stable P) (s2 : Stable Q) : Stable (P ⋆ Q) := by
  refine ⟨?_, ?_⟩
  · rintro h A ⟨A1, A2, h1, h2, -, rfl⟩ q hq
    rcases Finset.mem_union.1 hq with hq | hq
    · exact s1.live h1 q hq
    · exact s2.live h2 q hq
  · rintro h h' A A' B' w s hl d ⟨A1, A2, h1, h2, hd, rfl⟩
    rw [Finset.disjoint_union_left] at d
    exact ⟨A1, A2, s1.keep w s hl d.1 h1, s2.keep w s hl d.2 h2, hd, rfl⟩

theorem Stable.emp : Stable emp := ⟨fun h q hq => by rw [h] at hq; simp at hq, fun _ _ _ _ h => h⟩

theorem Stable.fact (p : Prop) : Stable (fact p) := ⟨fun h q hq => by rw [h.2] at hq; simp at hq, fun _ _ _ _ h => h⟩

theorem Stable.block (p : Nat) : Stable (Block p) := by
  refine ⟨?_, ?_⟩
  · rintro h A ⟨hp, rfl⟩ q hq
    rw [Finset.mem_singleton.1 hq]
    exact hp
  · rintro h h' A A' B' w s hl d ⟨hp, rfl⟩
    exact ⟨s.alive w (D := {p}) (by simpa using hp) d p (by simp), rfl⟩

theorem Stable.ite {P Q : HProp} {c : Prop} [Decidable c] (s1 : Stable P) (s2 : Stable Q) : Stable (if c then P else Q) := by
  split
  · exact s1
  · exact s2

theorem Stable.blockIf (c : Prop) [Decidable c] (p : Nat) : Stable (BlockIf c p) := Stable.ite (.block p) .emp

theorem Stable.lostLe (n : Nat) : Stable (LostLe n) := by
  refine ⟨fun h q hq => h.1 q hq, ?_⟩
  rintro h h' A A' B' w s hl d ⟨h1, h2⟩
  exact ⟨s.alive w h1 d, h2⟩

theorem Stable.ex {α : Type} {P : α → HProp} (s : ∀ a, Stable (P a)) : Stable (fun h A => ∃ a, P a h A) := by
  refine ⟨?_, ?_⟩
  · rintro h A ⟨a, h1⟩
    exact (s a).live h1
  · rintro h h' A A' B' w st hl d ⟨a, h1⟩
    exact ⟨a, (s a).keep w st hl d h1⟩

theorem Stable.and {P : HProp} (s : Stable P) (p : Prop) : Stable (fun h A => P h A ∧ p) :=
  ⟨fun h => s.live h.1, fun w st hl d h => ⟨s.keep w st hl d h.1, h.2⟩⟩

theorem LostLe.zero {h : Heap} {A : Finset Nat} : LostLe 0 h A ↔ emp h A := by
  unfold LostLe emp
  constructor
  · rintro ⟨-, h2⟩
    exact Finset.card_eq_zero.1 (Nat.le_zero.1 h2)
  · rintro rfl
    simp

theorem LostLe.zero_eq : LostLe 0 = emp := by
  funext h A
  exact propext LostLe.zero

theorem LostLe.mono {n m : Nat} (hn : n ≤ m) {h : Heap} {A : Finset Nat} (l : LostLe n h A) : LostLe m h A := ⟨l.1, Nat.le_trans l.2 hn⟩

theorem LostLe.add {n m : Nat} {h : Heap} {A : Finset Nat} (l : (LostLe n ⋆ LostLe m) h A) : LostLe (n + m) h A := by
  obtain ⟨A1, A2, h1, h2, d, rfl⟩ := l
  refine ⟨fun q hq => ?_, ?_⟩
  · rcases Finset.mem_union.1 hq with hq | hq
    · exact h1.1 q hq
    · exact h2.1 q hq
  · rw [Finset.card_union_of_disjoint d]
    exact Nat.add_le_add h1.2 h2.2

theorem Block.lostLe {p : Nat} {h : Heap} {A : Finset Nat} (b : Block p h A) : LostLe 1 h A := by
  obtain ⟨hp, rfl⟩ := b
  exact ⟨by simpa using hp, by simp⟩

/-! ### Code -/

/-- Started where `P` holds, the code runs without memory error, ends where `Q` holds, and leaves everything else alone. -/
def Does {α : Type} (P : HProp) (x : HM α) (Q : α → HProp) : Prop :=
  ∀ h A, h.Wf → h.Generous → P h A → ∃ a h' B, x h = .ok (a, h') ∧ Q a h' B ∧ Step h h' A B

namespace Does

theorem bind {α β : Type} {P : HProp} {x : HM α} {Q : α → HProp} {f : α → HM β} {R : β → HProp} (h1 : Does P x Q) (h2 : ∀ a, Does (Q a) (f a) R) :
    Does P (x >>= f) R := by
  intro h A w g p
  obtain ⟨a, h', B, e, q, s⟩ := h1 h A w g p
  obtain ⟨b, h'', B', e', q', s'⟩ := h2 a h' B s.wf (s.generous g) q
  refine ⟨b, h'', B', ?_, q', s.trans s'⟩
  show (x h >>= fun r => f r.1 r.2) = _
  rw [e]
  exact e'

theorem ret {α : Type} {P : HProp} {Q : α → HProp} {a : α} (st : Stable P) (hq : ∀ {h A}, P h A → Q a h A) : Does P (pure a) Q :=
  fun h A w _ p => ⟨a, h, A, rfl, hq p, Step.refl w (st.live p)⟩

theorem conseq {α : Type} {P P' : HProp} {x : HM α} {Q Q' : α → HProp} (h1 : Does P x Q) (hp : ∀ {h A}, P' h A → P h A) (hq : ∀ {a h A}, Q a h A → Q' a h A) :
    Does P' x Q' := by
  intro h A w g p
  obtain ⟨a, h', B, e, q, s⟩ := h1 h A w g (hp p)
  exact ⟨a, h', B, e, hq q, s⟩

theorem post {α : Type} {P : HProp} {x : HM α} {Q Q' : α → HProp} (h1 : Does P x Q) (hq : ∀ {a h A}, Q a h A → Q' a h A) : Does P x Q' :=
  h1.conseq (fun p => p) hq

theorem pre {α : Type} {P P' : HProp} {x : HM α} {Q : α → HProp} (h1 : Does P x Q) (hp : ∀ {h A}, P' h A → P h A) : Does P' x Q :=
  h1.conseq hp (fun q => q)

/-- The precondition, with its parts in another order. -/
theorem swap {α : Type} {P P' : HProp} {x : HM α} {Q : α → HProp} (h1 : Does P x Q) (e : P' = P) : Does P' x Q := e ▸ h1

theorem frame {α : Type} {P R : HProp} {x : HM α} {Q : α → HProp} (h1 : Does P x Q) (sp : Stable P) (sr : Stable R) : Does (P ⋆ R) x (fun a => Q a ⋆ R) := by
  rintro h A w g ⟨A1, A2, p, r, d, rfl⟩
  obtain ⟨a, h', B, e, q, s⟩ := h1 h A1 w g p
  have l2 := sr.live r
  refine ⟨a, h', B ∪ A2, e, ⟨B, A2, q, sr.keep w s (sp.live p) d.symm r, ?_, rfl⟩, ?_⟩
  · exact (s.apart w l2 d.symm).symm
  · exact s.frame w A2 (fun q hq hc => Finset.disjoint_left.1 d hc hq) l2

/-- Code whose part is the first of the precondition, then the rest. -/
theorem step {α β : Type} {P R : HProp} {x : HM α} {Q : α → HProp} {f : α → HM β} {S : β → HProp} (h1 : Does P x Q) (sp : Stable P) (sr : Stable R)
    (h2 : ∀ a, Does (Q a ⋆ R) (f a) S) : Does (P ⋆ R) (x >>= f) S := (h1.frame sp sr).bind h2

theorem fact {α : Type} {p : Prop} {P : HProp} {x : HM α} {Q : α → HProp} (h1 : p → Does P x Q) : Does (fact p ⋆ P) x Q := by
  intro h A w g hp
  rw [fact_star] at hp
  exact h1 hp.1 h A w g hp.2

theorem ex {α β : Type} {P : β → HProp} {x : HM α} {Q : α → HProp} (h1 : ∀ b, Does (P b) x Q) : Does (fun h A => ∃ b, P b h A) x Q := by
  rintro h A w g ⟨b, hp⟩
  exact h1 b h A w g hp

theorem exStar {α β : Type} {P : β → HProp} {R : HProp} {x : HM α} {Q : α → HProp} (h1 : ∀ b, Does (P b ⋆ R) x Q) : Does ((fun h A => ∃ b, P b h A) ⋆ R) x Q := by
  rintro h A w g ⟨A1, A2, ⟨b, hp⟩, hr, d, rfl⟩
  exact h1 b h _ w g ⟨A1, A2, hp, hr, d, rfl⟩

/-- Facts that follow from the precondition. -/
theorem know {α : Type} {p : Prop} {P : HProp} {x : HM α} {Q : α → HProp} (hk : ∀ {h A}, P h A → p) (h1 : p → Does P x Q) : Does P x Q :=
  fun h A w g hp => h1 (hk hp) h A w g hp

theorem new : Does emp HM.new Block := by
  rintro h A w - rfl
  obtain ⟨s, b, -⟩ := new_ok w
  exact ⟨h.new.1, h.new.2, _, rfl, ⟨by rw [b]; simp, rfl⟩, s⟩

theorem free {p : Nat} : Does (Block p) (HM.free p) (fun _ => emp) := by
  rintro h A w - ⟨hp, rfl⟩
  obtain ⟨b, hb⟩ := Option.ne_none_iff_exists'.1 hp
  obtain ⟨h2, e2, s2⟩ := free_ok w (Or.inr ⟨b, hb⟩)
  rw [own_pos (w.ne hb)] at s2
  refine ⟨(), h2, ∅, ?_, rfl, s2⟩
  show (h.free p >>= fun h' => .ok ((), h')) = _
  rw [e2]
  rfl

/-- Code that only reads. -/
theorem look {α : Type} {P : HProp} (st : Stable P) {f : Heap → C α} {a : α} (hf : ∀ {h A}, h.Wf → P h A → f h = .ok a) : Does P (HM.look f) (fun b => Heap.fact (b = a) ⋆ P) := by
  intro h A w _ p
  refine ⟨a, h, A, ?_, fact_star.2 ⟨rfl, p⟩, Step.refl w (st.live p)⟩
  show (f h >>= fun a => .ok (a, h)) = _
  rw [hf w p]
  rfl

theorem lift {α : Type} {x : C α} {a : α} (hx : x = .ok a) : Does emp (HM.lift x) (fun b => Heap.fact (b = a)) := by
  refine (look Stable.emp (fun _ _ => hx)).post (fun h => ?_)
  rw [fact_star] at h
  exact ⟨h.1, h.2⟩

theorem access {P : HProp} (st : Stable P) {p n : Nat} (hf : ∀ {h A}, P h A → n > 0 → h.blocks p ≠ none) : Does P (HM.access p n) (fun _ => P) := by
  refine (look st (a := ()) (fun _ a => access_ok (hf a))).post (fun h => ?_)
  rw [fact_star] at h
  exact h.2

theorem run {P : HProp} {f : Heap → C Heap} (hf : ∀ {h A}, h.Wf → P h A → ∃ h', f h = .ok h' ∧ Step h h' A ∅) : Does P (HM.run f) (fun _ => emp) := by
  intro h A w _ p
  obtain ⟨h', e, s⟩ := hf w p
  refine ⟨(), h', ∅, ?_, rfl, s⟩
  show (f h >>= fun h' => .ok ((), h')) = _
  rw [e]
  rfl

theorem obj {α : Type} {P : HProp} {f : Heap → C (α × Heap)} {Q : α → HProp} (hf : ∀ {h A}, h.Wf → h.Generous → P h A → ∃ a h' B, f h = .ok (a, h') ∧ Q a h' B ∧ Step h h' A B) :
    Does P (HM.obj f) Q := fun _ _ w g p => hf w g p

/-- A new object made from another one. -/
theorem make {α : Type} {P : HProp} (st : Stable P) {f : Heap → C (α × Heap)} {Q : α → HProp}
    (hf : ∀ {h A}, h.Wf → h.Generous → P h A → ∃ a h' B, f h = .ok (a, h') ∧ Q a h' B ∧ Step h h' ∅ B) :
    Does P (HM.obj f) (fun a => Q a ⋆ P) := by
  intro h A w g p
  obtain ⟨a, h', B, e, q, s⟩ := hf w g p
  refine ⟨a, h', B ∪ A, e, ⟨B, A, q, st.keep w s (by simp) (by simp) p, ?_, rfl⟩, ?_⟩
  · exact (s.apart w (st.live p) (by simp)).symm
  · have := s.frame w A (by simp) (st.live p)
    simpa using this

theorem parse {α : Type} {P : HProp} {f : Heap → C (α × Nat × PStream × Heap)} {Q : α → HProp} {r : Nat} {s' : PStream}
    (hf : ∀ {h A}, h.Wf → h.Generous → P h A → ∃ a h' B, f h = .ok (a, r, s', h') ∧ Q a h' B ∧ Step h h' A B) :
    Does P (HM.parse f) (fun a => Heap.fact (a.2 = (r, s')) ⋆ Q a.1) := by
  intro h A w g p
  obtain ⟨a, h', B, e, q, s⟩ := hf w g p
  refine ⟨(a, r, s'), h', B, ?_, fact_star.2 ⟨rfl, q⟩, s⟩
  show (f h >>= fun r => .ok ((r.1, r.2.1, r.2.2.1), r.2.2.2)) = _
  rw [e]
  rfl

/-- `for(...) f(x[i]);` -/
theorem forEach {α β : Type} {P : α → β → HProp} (st : ∀ o v, Stable (P o v)) {f : α → HM Unit} {G : β → Prop} (hf : ∀ o v, G v → Does (P o v) (f o) (fun _ => emp)) :
    ∀ (os : List α) (vs : List β), (∀ v ∈ vs, G v) → Does (EachAt P os vs) (HM.forEach f os) (fun _ => emp) := by
  intro os
  induction os with
  | nil =>
    intro vs _
    cases vs with
    | nil => exact ret Stable.emp (fun h => h)
    | cons v vs => exact fun h A w g p => p.elim
  | cons o os ih =>
    intro vs hg
    cases vs with
    | nil => exact fun h A w g p => p.elim
    | cons v vs =>
      show Does (P o v ⋆ EachAt P os vs) (f o >>= fun _ => HM.forEach f os) _
      refine (hf o v (hg v (by simp))).step (st o v) (EachAt.stable st os vs) fun _ => ?_
      rw [emp_star]
      exact ih vs fun v hv => hg v (by simp [hv])

/-- `for(...) y[i] = f(x[i]);` for a new array; `R` does not change. -/
theorem mapEach {α β γ : Type} {P : α → β → HProp} (st : ∀ o v, Stable (P o v)) {P' : γ → β → HProp} (st' : ∀ o v, Stable (P' o v)) {f : α → HM γ}
    {g : β → β} {n : β → Nat} {G : β → Prop} (hf : ∀ o v, G v → Does (P o v) (f o) (fun o' => P' o' (g v) ⋆ LostLe (n v) ⋆ P o v)) :
    ∀ (os : List α) (vs : List β), (∀ v ∈ vs, G v) →
      Does (EachAt P os vs) (HM.mapEach f os) (fun os' => EachAt P' os' (vs.map g) ⋆ LostLe (vs.map n).sum ⋆ EachAt P os vs) := by
  intro os
  induction os with
  | nil =>
    intro vs _
    cases vs with
    | nil =>
      refine ret Stable.emp (fun h => ?_)
      show (emp ⋆ LostLe 0 ⋆ emp) _ _
      rw [LostLe.zero_eq, emp_star, emp_star]
      exact h
    | cons v vs => exact fun h A w g p => p.elim
  | cons o os ih =>
    intro vs hg
    cases vs with
    | nil => exact fun h A w g p => p.elim
    | cons v vs =>
      show Does (P o v ⋆ EachAt P os vs) (f o >>= fun y => HM.mapEach f os >>= fun ys => pure (y :: ys)) _
      refine (hf o v (hg v (by simp))).step (st o v) (EachAt.stable st os vs) fun o' => ?_
      refine Does.swap (P := EachAt P os vs ⋆ (P' o' (g v) ⋆ LostLe (n v) ⋆ P o v)) ?_ (Star.comm _ _)
      have s1 := ((st' o' (g v)).star ((Stable.lostLe (n v)).star (st o v)))
      refine (ih vs fun v hv => hg v (by simp [hv])).step (EachAt.stable st os vs) s1 fun os' => ?_
      refine ret (((EachAt.stable st' _ _).star ((Stable.lostLe _).star (EachAt.stable st os vs))).star s1) (fun h => ?_)
      have e : (EachAt P' os' (vs.map g) ⋆ LostLe (vs.map n).sum ⋆ EachAt P os vs) ⋆ P' o' (g v) ⋆ LostLe (n v) ⋆ P o v =
          (P' o' (g v) ⋆ EachAt P' os' (vs.map g)) ⋆ (LostLe (n v) ⋆ LostLe (vs.map n).sum) ⋆ (P o v ⋆ EachAt P os vs) := by ac_rfl
      rw [e] at h
      exact star_mono (fun h => h) (star_mono LostLe.add (fun h => h)) h

end Does

/-! ### Arrays -/

/-- One element of an array, and the others. -/
theorem EachAt.split {α β : Type} {P : α → β → HProp} : ∀ (i : Nat) {os : List α} {vs : List β} {o : α} {v : β}, os[i]? = some o → vs[i]? = some v →
    EachAt P os vs = P o v ⋆ EachAt P (os.eraseIdx i) (vs.eraseIdx i) := by
  intro i
  induction i with
  | zero =>
    intro os vs o v ho hv
    cases os with
    | nil => simp at ho
    | cons o' os =>
      cases vs with
      | nil => simp at hv
      | cons v' vs =>
        simp only [List.getElem?_cons_zero, Option.some.injEq] at ho hv
        subst ho hv
        rfl
  | succ i ih =>
    intro os vs o v ho hv
    cases os with
    | nil => simp at ho
    | cons o' os =>
      cases vs with
      | nil => simp at hv
      | cons v' vs =>
        show P o' v' ⋆ EachAt P os vs = P o v ⋆ P o' v' ⋆ EachAt P (os.eraseIdx i) (vs.eraseIdx i)
        rw [ih (by simpa using ho) (by simpa using hv), Star.left_comm]

theorem EachAt.lookup {α β : Type} {P : α → β → HProp} {os : List α} {vs : List β} {h : Heap} {A : Finset Nat} (e : EachAt P os vs h A) {i : Nat} {v : β}
    (hv : vs[i]? = some v) : ∃ o, os[i]? = some o := by
  have hl := e.length
  have hi : i < vs.length := (List.getElem?_eq_some_iff.1 hv).1
  exact ⟨os[i]'(by omega), List.getElem?_eq_getElem _⟩

theorem EachAt.unsplit {α β : Type} {P : α → β → HProp} {i : Nat} {os : List α} {vs : List β} (o : α) (v : β) (ho : i < os.length) (hv : i < vs.length) :
    P o v ⋆ EachAt P (os.eraseIdx i) (vs.eraseIdx i) = EachAt P (os.set i o) (vs.set i v) := by
  rw [EachAt.split i (os := os.set i o) (vs := vs.set i v) (o := o) (v := v) (by simp [ho]) (by simp [hv])]
  simp only [List.eraseIdx_set_eq]

/-- Elements with two parts. -/
theorem EachAt.parts {α β : Type} {P Q : α → β → HProp} : ∀ (os : List α) (vs : List β), EachAt (fun o v => P o v ⋆ Q o v) os vs = EachAt P os vs ⋆ EachAt Q os vs := by
  intro os
  induction os with
  | nil =>
    intro vs
    cases vs with
    | nil => exact (emp_star emp).symm
    | cons v vs =>
      funext h A
      refine propext ⟨fun h => h.elim, ?_⟩
      rintro ⟨A1, A2, h1, -⟩
      exact h1.elim
  | cons o os ih =>
    intro vs
    cases vs with
    | nil =>
      funext h A
      refine propext ⟨fun h => h.elim, ?_⟩
      rintro ⟨A1, A2, h1, -⟩
      exact h1.elim
    | cons v vs =>
      show (P o v ⋆ Q o v) ⋆ EachAt (fun o v => P o v ⋆ Q o v) os vs = (P o v ⋆ EachAt P os vs) ⋆ (Q o v ⋆ EachAt Q os vs)
      rw [ih]
      ac_rfl

/-- `delete [] p` -/
theorem Does.deleteArray {α β : Type} {P : α → β → HProp} (st : ∀ o v, Stable (P o v)) {d : α → Heap → C Heap}
    (hf : ∀ {h : Heap} {o : α} {v : β} {A : Finset Nat}, h.Wf → P o v h A → ∃ h', d o h = .ok h' ∧ Step h h' A ∅) (p : Nat) (os : List α) (vs : List β) :
    Does (Block p ⋆ EachAt P os vs) (HM.run (deleteArray d p os)) (fun _ => emp) := by
  refine Does.run fun {h A} w a => ?_
  obtain ⟨A1, A', ⟨hp, rfl⟩, e, hn, rfl⟩ := a
  obtain ⟨h1, e1, s1⟩ := destroyEach_ok st (Q := fun _ => True) (fun w a _ => hf w a) w e (fun _ _ => trivial)
  have hp1 : h1.blocks p ≠ none := s1.alive w (D := {p}) (by simpa using hp) hn p (by simp)
  obtain ⟨b, hb⟩ := Option.ne_none_iff_exists'.1 hp1
  obtain ⟨h2, e2, s2⟩ := free_ok s1.wf (Or.inr ⟨b, hb⟩)
  rw [own_pos (s1.wf.ne hb)] at s2
  refine ⟨h2, ?_, ?_⟩
  · unfold UB.deleteArray
    rw [access_ok (fun _ => hp), C.bind_ok, e1, C.bind_ok]
    exact e2
  · have := s1.gone2 s2 w (by simpa using hp) hn.symm
    rwa [Finset.union_comm] at this

end Heap
end UB
