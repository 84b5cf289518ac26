import Verif.Model.Heap
import Verif.Lemmas.Bytes
import Mathlib.Data.Finset.Basic
import Mathlib.Data.Finset.Union
import Mathlib.Tactic.Push

/-! Reasoning about the heap: how a piece of code changes the set of blocks it is responsible for. -/

namespace UB
namespace Heap

/-- An allocator that does not grant what no 64-bit machine can grant. -/
def Bounded (h : Heap) : Prop := ∀ n size, 2 ^ 63 ≤ size → h.denies n size = true

/-- NULL is not a block, addresses above `next` have not been handed out, and blocks are not larger than the allocator grants. -/
structure Wf (h : Heap) : Prop where
  null : h.blocks 0 = none
  fresh : ∀ q, h.next < q → h.blocks q = none
  small : h.Bounded → ∀ q b, h.blocks q = some b → b.length < 2 ^ 63

theorem Bounded.granted {h : Heap} (hb : h.Bounded) {n size : Nat} (hd : h.denies n size = false) : size < 2 ^ 63 := by
  by_contra hc
  rw [hb n size (by omega)] at hd
  cases hd

theorem Wf.le {h : Heap} (w : h.Wf) {q : Nat} {b : Bytes} (hb : h.blocks q = some b) : q ≤ h.next := by
  by_contra hc
  rw [w.fresh q (by omega)] at hb
  cases hb

theorem Wf.ne {h : Heap} (w : h.Wf) {q : Nat} {b : Bytes} (hb : h.blocks q = some b) : q ≠ 0 := by
  rintro rfl
  rw [w.null] at hb
  cases hb

/-- The heap changed from `h` to `h'` by code responsible for the blocks `A` before and for the blocks `B` afterwards: the blocks of
`A` not in `B` are gone, those in `B` not in `A` are new, and every other block is as before. -/
structure Step (h h' : Heap) (A B : Finset Nat) : Prop where
  wf : h'.Wf
  le : h.next ≤ h'.next
  denies : h'.denies = h.denies
  other : ∀ q, q ∉ A → q ≤ h.next → h'.blocks q = h.blocks q
  fresh : ∀ q ∈ B, q ∈ A ∨ h.next < q
  live : ∀ q ∈ B, h'.blocks q ≠ none
  dead : ∀ q, q ∈ A ∨ h.next < q → q ∉ B → h'.blocks q = none

theorem Step.refl {h : Heap} (w : h.Wf) {A : Finset Nat} (ha : ∀ q ∈ A, h.blocks q ≠ none) : Step h h A A :=
  ⟨w, le_refl _, rfl, fun _ _ _ => rfl, fun _ hq => Or.inl hq, ha, fun q hq hn => by
    rcases hq with hq | hq
    · exact absurd hq hn
    · exact w.fresh q hq⟩

theorem Step.trans {h h1 h2 : Heap} {A B D : Finset Nat} (s1 : Step h h1 A B) (s2 : Step h1 h2 B D) : Step h h2 A D where
  wf := s2.wf
  le := le_trans s1.le s2.le
  denies := s2.denies.trans s1.denies
  other := fun q hq hn => by
    have hb : q ∉ B := fun hb => by
      rcases s1.fresh q hb with h1 | h1
      · exact hq h1
      · omega
    rw [s2.other q hb (le_trans hn s1.le), s1.other q hq hn]
  fresh := fun q hq => by
    rcases s2.fresh q hq with h1 | h1
    · exact s1.fresh q h1
    · exact Or.inr (lt_of_le_of_lt s1.le h1)
  live := s2.live
  dead := fun q hq hn => by
    by_cases hb : q ∈ B
    · exact s2.dead q (Or.inl hb) hn
    · by_cases hl : h1.next < q
      · exact s2.dead q (Or.inr hl) hn
      · rw [s2.other q hb (by omega)]
        exact s1.dead q hq hb

theorem Step.frame {h h' : Heap} {A B : Finset Nat} (s : Step h h' A B) (w : h.Wf) (D : Finset Nat) (hd : ∀ q ∈ D, q ∉ A)
    (hl : ∀ q ∈ D, h.blocks q ≠ none) : Step h h' (A ∪ D) (B ∪ D) where
  wf := s.wf
  le := s.le
  denies := s.denies
  other := fun q hq hn => by
    simp only [Finset.mem_union, not_or] at hq
    exact s.other q hq.1 hn
  fresh := fun q hq => by
    rcases Finset.mem_union.1 hq with hq | hq
    · rcases s.fresh q hq with h1 | h1
      · exact Or.inl (Finset.mem_union_left _ h1)
      · exact Or.inr h1
    · exact Or.inl (Finset.mem_union_right _ hq)
  live := fun q hq => by
    rcases Finset.mem_union.1 hq with hq | hq
    · exact s.live q hq
    · cases hb : h.blocks q with
      | none => exact absurd hb (hl q hq)
      | some b =>
        rw [s.other q (hd q hq) (w.le hb), hb]
        simp
  dead := fun q hq hn => by
    simp only [Finset.mem_union, not_or] at hq hn
    rcases hq with (hq | hq) | hq
    · exact s.dead q (Or.inl hq) hn.1
    · exact absurd hq hn.2
    · exact s.dead q (Or.inr hq) hn.1

/-- A block outside the responsibility of the code keeps its contents. -/
theorem Step.keep {h h' : Heap} {A B : Finset Nat} (s : Step h h' A B) (w : h.Wf) {q : Nat} {b : Bytes} (hq : q ∉ A)
    (hb : h.blocks q = some b) : h'.blocks q = some b := by
  rw [s.other q hq (w.le hb), hb]

theorem Step.notIn {h h' : Heap} {A B : Finset Nat} (s : Step h h' A B) (w : h.Wf) {q : Nat} {b : Bytes} (hq : q ∉ A)
    (hb : h.blocks q = some b) : q ∉ B := fun hc => by
  rcases s.fresh q hc with h1 | h1
  · exact hq h1
  · exact absurd (w.le hb) (by omega)

/-- The set holding the address unless it is NULL. -/
def own (p : Nat) : Finset Nat := if p = 0 then ∅ else {p}

@[simp] theorem own_zero : own 0 = ∅ := rfl

theorem own_pos {p : Nat} (h : p ≠ 0) : own p = {p} := if_neg h

theorem mem_own {p q : Nat} : q ∈ own p ↔ q = p ∧ p ≠ 0 := by
  unfold own
  split
  · simp [*]
  · simp [*]

theorem set_same (h : Heap) (p : Nat) (b : Option Bytes) : (h.set p b).blocks p = b := by simp [set]

theorem set_ne (h : Heap) {p q : Nat} (b : Option Bytes) (hq : q ≠ p) : (h.set p b).blocks q = h.blocks q := by simp [set, hq]

/-! ### The primitives -/

/-- A granted request. -/
theorem calloc_granted {h : Heap} (w : h.Wf) {n : Nat} (hd : h.denies h.next n = false) :
    (h.calloc n).1 ≠ 0 ∧ (h.calloc n).2.blocks (h.calloc n).1 = some (zeros n) ∧ Step h (h.calloc n).2 ∅ (own (h.calloc n).1) := by
  have e : h.calloc n = (h.next + 1, { h.set (h.next + 1) (some (zeros n)) with next := h.next + 1 }) := by simp [calloc, hd]
  rw [e]
  refine ⟨by simp, by simp [set], ⟨?_, ?_, ?_⟩, by simp, rfl, ?_, ?_, ?_, ?_⟩
  · simp [set, w.null]
  · intro q hq
    have : q ≠ h.next + 1 := by rintro rfl; simp at hq
    simp only [set, if_neg this]
    exact w.fresh q (by simp at hq; omega)
  · intro g q b hb
    by_cases e : q = h.next + 1
    · simp only [set, if_pos e, Option.some.injEq] at hb
      rw [← hb]
      simpa [zeros] using Bounded.granted g hd
    · simp only [set, if_neg e] at hb
      exact w.small g q b hb
  · intro q _ hq
    have : q ≠ h.next + 1 := by omega
    simp only [set, if_neg this]
  · intro q hq
    rw [mem_own] at hq
    right; omega
  · intro q hq
    rw [mem_own] at hq
    obtain ⟨rfl, _⟩ := hq
    simp [set]
  · intro q hq hn
    have : q ≠ h.next + 1 := by rintro rfl; exact hn (mem_own.2 ⟨rfl, by simp⟩)
    simp only [set, if_neg this]
    exact w.fresh q (by simpa using hq)

/-- A denied request. -/
theorem calloc_denied {h : Heap} (w : h.Wf) {n : Nat} (hd : h.denies h.next n = true) :
    (h.calloc n).1 = 0 ∧ Step h (h.calloc n).2 ∅ ∅ := by
  have e : h.calloc n = (0, { h with next := h.next + 1 }) := by simp [calloc, hd]
  rw [e]
  refine ⟨rfl, ⟨w.null, fun q hq => w.fresh q (by simp at hq; omega), w.small⟩, by simp, rfl, fun _ _ _ => rfl, by simp, by simp, ?_⟩
  intro q hq _
  exact w.fresh q (by simpa using hq)

theorem free_zero (h : Heap) : h.free 0 = .ok h := rfl

theorem free_live {h : Heap} {p : Nat} {b : Bytes} (hb : h.blocks p = some b) (hp : p ≠ 0) : h.free p = .ok (h.set p none) := by
  simp [free, hp, hb]

theorem free_dead {h : Heap} {p : Nat} (hb : h.blocks p = none) (hp : p ≠ 0) : h.free p = .ub := by
  simp [free, hp, hb]

theorem Step.set_none {h : Heap} (w : h.Wf) {p : Nat} {b : Bytes} (hb : h.blocks p = some b) :
    Step h (h.set p none) (own p) ∅ := by
  have hp := w.ne hb
  refine ⟨⟨?_, ?_, ?_⟩, le_refl _, rfl, ?_, by simp, by simp, ?_⟩
  · rw [set_ne _ _ (Ne.symm hp)]; exact w.null
  · intro q hq
    by_cases e : q = p
    · subst e; exact set_same _ _ _
    · rw [set_ne _ _ e]; exact w.fresh q hq
  · intro g q b hq
    by_cases e : q = p
    · subst e
      rw [set_same] at hq
      cases hq
    · rw [set_ne _ _ e] at hq; exact w.small g q b hq
  · intro q hq _
    rw [own_pos hp, Finset.mem_singleton] at hq
    exact set_ne _ _ hq
  · intro q hq _
    by_cases e : q = p
    · subst e; exact set_same _ _ _
    · rw [set_ne _ _ e]
      rcases hq with hq | hq
      · exact absurd (mem_own.1 hq).1 e
      · exact w.fresh q hq

theorem free_ok {h : Heap} (w : h.Wf) {p : Nat} (hp : p = 0 ∨ ∃ b, h.blocks p = some b) :
    ∃ h', h.free p = .ok h' ∧ Step h h' (own p) ∅ := by
  rcases hp with rfl | ⟨b, hb⟩
  · exact ⟨h, rfl, Step.refl w (by simp)⟩
  · exact ⟨_, free_live hb (w.ne hb), Step.set_none w hb⟩

theorem Step.set_some {h : Heap} (w : h.Wf) {p : Nat} {b b' : Bytes} (hb : h.blocks p = some b) (hl : b'.length = b.length) :
    Step h (h.set p (some b')) (own p) (own p) := by
  have hp := w.ne hb
  refine ⟨⟨?_, ?_, ?_⟩, le_refl _, rfl, ?_, fun q hq => Or.inl hq, ?_, ?_⟩
  · rw [set_ne _ _ (Ne.symm hp)]; exact w.null
  · intro q hq
    have e : q ≠ p := by rintro rfl; exact absurd (w.le hb) (by simp [set] at hq; omega)
    rw [set_ne _ _ e]; exact w.fresh q hq
  · intro g q c hq
    by_cases e : q = p
    · subst e
      rw [set_same, Option.some.injEq] at hq
      rw [← hq, hl]
      exact w.small g q b hb
    · rw [set_ne _ _ e] at hq; exact w.small g q c hq
  · intro q hq _
    rw [own_pos hp, Finset.mem_singleton] at hq
    exact set_ne _ _ hq
  · intro q hq
    rw [(mem_own.1 hq).1, set_same]
    simp
  · intro q hq hn
    rcases hq with hq | hq
    · exact absurd hq hn
    · have e : q ≠ p := by rintro rfl; exact absurd (w.le hb) (by omega)
      rw [set_ne _ _ e]; exact w.fresh q hq

theorem writeAt_len {b b' : Bytes} {off : Nat} {bs : Bytes} (hw : writeAt b off bs = some b') : b'.length = b.length := by
  unfold writeAt at hw
  split at hw
  · injection hw with hw
    rw [hw]
  · split at hw
    · injection hw with hw
      rw [← hw]
      simp only [List.length_append, List.length_take, List.length_drop]
      omega
    · cases hw

/-- Writing within a block. -/
theorem write_ok {h : Heap} (w : h.Wf) {p : Nat} {b b' : Bytes} {off : Nat} {bs : Bytes} (hb : h.blocks p = some b)
    (hw : writeAt b off bs = some b') : ∃ h', h.write p off bs = .ok h' ∧ h'.blocks p = some b' ∧ h'.next = h.next ∧ Step h h' (own p) (own p) := by
  by_cases e : bs = []
  · subst e
    have : b' = b := by simpa [writeAt] using hw.symm
    subst this
    exact ⟨h, by simp [write], hb, rfl, Step.refl w fun q hq => by rw [(mem_own.1 hq).1, hb]; simp⟩
  · refine ⟨h.set p (some b'), ?_, set_same _ _ _, rfl, Step.set_some w hb (writeAt_len hw)⟩
    simp [write, e, hb, hw]

theorem write_nil (h : Heap) (p : Nat) (off : Nat) : h.write p off [] = .ok h := by simp [write]

theorem write_ub {h : Heap} {p : Nat} {b : Bytes} {off : Nat} {bs : Bytes} (hb : h.blocks p = some b)
    (hw : writeAt b off bs = none) : h.write p off bs = .ub := by
  have e : bs ≠ [] := by rintro rfl; simp [writeAt] at hw
  simp [write, e, hb, hw]

theorem writeAt_zeros (bs : Bytes) : writeAt (zeros bs.length) 0 bs = some bs := by
  unfold writeAt
  split
  · subst_vars; rfl
  · simp [zeros]

theorem writeAt_end (b bs c : Bytes) (hc : c.length = bs.length) : writeAt (b ++ c) b.length bs = some (b ++ bs) := by
  unfold writeAt
  split
  · subst_vars
    simp only [List.length_nil, List.length_eq_zero_iff] at hc
    rw [hc]
  · rw [if_pos (by simp [hc])]
    simp [← hc]

/-- Reading a whole block. -/
theorem read_all {h : Heap} {p : Nat} {b : Bytes} {n : Nat} (hb : h.blocks p = some b) (hn : n ≤ b.length) :
    h.read p 0 n = .ok (b.take n) := by
  unfold read
  split
  · subst_vars; rfl
  · simp [hb, hn]

theorem realloc_granted {h : Heap} (w : h.Wf) {p : Nat} {b : Bytes} {n : Nat} (hb : h.blocks p = some b)
    (hd : h.denies h.next n = false) :
    ∃ p' h', h.realloc p n = .ok (p', h') ∧ p' ≠ 0 ∧ h'.blocks p' = some (b.take n ++ zeros (n - b.length)) ∧
      Step h h' (own p) (own p') := by
  have hp := w.ne hb
  have hl := w.le hb
  refine ⟨h.next + 1, { (h.set p none).set (h.next + 1) (some (b.take n ++ zeros (n - b.length))) with next := h.next + 1 }, by simp only [realloc, if_neg hp, hb, hd, Bool.false_eq_true, if_false], by simp, by simp [set], ⟨?_, ?_, ?_⟩, by simp, rfl, ?_, ?_, ?_, ?_⟩
  · simp [set, w.null]
  · intro q hq
    have h1 : q ≠ h.next + 1 := by rintro rfl; simp at hq
    simp only [set, if_neg h1]
    split
    · rfl
    · exact w.fresh q (by simp at hq; omega)
  · intro g q c hq
    by_cases e : q = h.next + 1
    · simp only [set, if_pos e, Option.some.injEq] at hq
      have := Bounded.granted g hd
      rw [← hq]
      simp only [List.length_append, List.length_take, zeros, List.length_replicate]
      omega
    · simp only [set, if_neg e] at hq
      split at hq
      · cases hq
      · exact w.small g q c hq
  · intro q hq hn
    have h1 : q ≠ h.next + 1 := by omega
    have h2 : q ≠ p := by rintro rfl; exact hq (mem_own.2 ⟨rfl, hp⟩)
    simp only [set, if_neg h1, if_neg h2]
  · intro q hq
    rw [mem_own] at hq
    right; omega
  · intro q hq
    rw [mem_own] at hq
    obtain ⟨rfl, _⟩ := hq
    simp [set]
  · intro q hq hn
    have h1 : q ≠ h.next + 1 := by rintro rfl; exact hn (mem_own.2 ⟨rfl, by simp⟩)
    simp only [set, if_neg h1]
    split
    · rfl
    · rename_i h2
      rcases hq with hq | hq
      · exact absurd (mem_own.1 hq).1 h2
      · exact w.fresh q hq

theorem realloc_denied {h : Heap} (w : h.Wf) {p : Nat} {b : Bytes} {n : Nat} (hb : h.blocks p = some b)
    (hd : h.denies h.next n = true) :
    ∃ h', h.realloc p n = .ok (0, h') ∧ h'.blocks p = some b ∧ Step h h' (own p) (own p) := by
  have hp := w.ne hb
  refine ⟨{ h with next := h.next + 1 }, by simp only [realloc, if_neg hp, hb, hd, if_true], hb, ⟨w.null, fun q hq => w.fresh q (by simp at hq; omega), w.small⟩, by simp, rfl,
    fun _ _ _ => rfl, fun q hq => Or.inl hq, ?_, ?_⟩
  · intro q hq
    rw [(mem_own.1 hq).1]
    simp [hb]
  · intro q hq hn
    rcases hq with hq | hq
    · exact absurd hq hn
    · exact w.fresh q hq

end Heap
end UB
