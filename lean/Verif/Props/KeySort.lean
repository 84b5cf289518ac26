import Verif.Model.KeySort
import Verif.Props.PointOps

/-
C96: the quicksort of Script.cpp.
-/

namespace UB
open Spec
namespace KeySort

variable {α : Type}

theorem get_mid (A B : List α) (x : α) : get (A ++ x :: B) A.length = .ok x := by
  unfold get; simp

theorem swap_mid (A M B : List α) (x y : α) : swap (A ++ x :: (M ++ y :: B)) A.length (A.length + 1 + M.length) = .ok (A ++ y :: (M ++ x :: B)) := by
  unfold swap
  have h2 : get (A ++ x :: (M ++ y :: B)) (A.length + 1 + M.length) = .ok y := by
    have := get_mid (A ++ x :: M) B y
    simpa [Nat.add_assoc, Nat.add_comm, Nat.add_left_comm] using this
  rw [get_mid, C.bind_ok, h2, C.bind_ok]
  show C.ok _ = _
  congr 1
  rw [List.set_append_right _ _ (Nat.le_refl _), Nat.sub_self, List.set_cons_zero, List.set_append_right _ _ (by omega),
    show A.length + 1 + M.length - A.length = M.length + 1 by omega, List.set_cons_succ, List.set_append_right _ _ (Nat.le_refl _), Nat.sub_self, List.set_cons_zero]

theorem swap_same (A B : List α) (x : α) : swap (A ++ x :: B) A.length A.length = .ok (A ++ x :: B) := by
  unfold swap
  rw [get_mid, C.bind_ok, C.bind_ok]
  show C.ok _ = _
  congr 1
  simp

variable (le : α → α → C Bool) (r : α → α → Prop) [DecidableRel r]

/-- What `partition` does to the part in front of the pivot. -/
theorem scan_spec (pivot : α) (A B : List α) : ∀ (U S G : List α), (∀ x ∈ U, le x pivot = .ok (decide (r x pivot))) → (∀ x ∈ S, r x pivot) → (∀ x ∈ G, ¬ r x pivot) →
    ∃ S' G', scan le pivot U.length (A.length + S.length + G.length) (A.length + S.length) (A ++ (S ++ (G ++ (U ++ B)))) = .ok (A ++ (S' ++ (G' ++ B)), A.length + S'.length) ∧
      (S' ++ G').Perm (S ++ (G ++ U)) ∧ (∀ x ∈ S', r x pivot) ∧ (∀ x ∈ G', ¬ r x pivot)
  | [], S, G, _, hs, hg => ⟨S, G, by simp [scan], by simp, hs, hg⟩
  | u :: U, S, G, hu, hs, hg => by
    have hget : get (A ++ (S ++ (G ++ (u :: U ++ B)))) (A.length + S.length + G.length) = .ok u := by
      have := get_mid (A ++ S ++ G) (U ++ B) u
      simpa [Nat.add_assoc] using this
    rw [List.length_cons, scan, hget, C.bind_ok, hu u List.mem_cons_self, C.bind_ok]
    by_cases h : r u pivot
    · rw [if_pos (by simpa using h)]
      cases G with
      | nil =>
        have hsw : swap (A ++ (S ++ ([] ++ (u :: U ++ B)))) (A.length + S.length) (A.length + S.length + ([] : List α).length) = .ok (A ++ (S ++ [u] ++ ([] ++ (U ++ B)))) := by
          have := swap_same (A ++ S) (U ++ B) u
          simpa using this
        rw [hsw, C.bind_ok]
        obtain ⟨S', G', e, hp, h1, h2⟩ := scan_spec pivot A B U (S ++ [u]) [] (fun x hx => hu x (List.mem_cons_of_mem _ hx)) (by
          intro x hx
          rcases List.mem_append.mp hx with hx | hx
          · exact hs x hx
          · rw [List.mem_singleton.mp hx]; exact h) (by simp)
        refine ⟨S', G', ?_, ?_, h1, h2⟩
        · rw [← e]; simp [Nat.add_assoc]
        · simpa using hp
      | cons g G =>
        have hsw : swap (A ++ (S ++ (g :: G ++ (u :: U ++ B)))) (A.length + S.length) (A.length + S.length + (g :: G).length) = .ok (A ++ (S ++ [u] ++ (G ++ [g] ++ (U ++ B)))) := by
          have := swap_mid (A ++ S) G (U ++ B) g u
          simpa [Nat.add_assoc, Nat.add_comm 1] using this
        rw [hsw, C.bind_ok]
        obtain ⟨S', G', e, hp, h1, h2⟩ := scan_spec pivot A B U (S ++ [u]) (G ++ [g]) (fun x hx => hu x (List.mem_cons_of_mem _ hx)) (by
          intro x hx
          rcases List.mem_append.mp hx with hx | hx
          · exact hs x hx
          · rw [List.mem_singleton.mp hx]; exact h) (by
          intro x hx
          rcases List.mem_append.mp hx with hx | hx
          · exact hg x (List.mem_cons_of_mem _ hx)
          · rw [List.mem_singleton.mp hx]; exact hg g List.mem_cons_self)
        refine ⟨S', G', ?_, ?_, h1, h2⟩
        · rw [← e]; simp [Nat.add_assoc, Nat.add_comm, Nat.add_left_comm]
        · refine hp.trans ?_
          rw [List.append_assoc]
          refine List.Perm.append_left S ?_
          show (u :: (G ++ [g] ++ U)).Perm (g :: G ++ (u :: U))
          refine ((List.perm_append_comm (l₁ := G) (l₂ := [g])).append_right U).cons u |>.trans ?_
          exact (List.perm_middle (l₁ := g :: G) (l₂ := U) (a := u)).symm
    · rw [if_neg (by simpa using h)]
      obtain ⟨S', G', e, hp, h1, h2⟩ := scan_spec pivot A B U S (G ++ [u]) (fun x hx => hu x (List.mem_cons_of_mem _ hx)) hs (by
          intro x hx
          rcases List.mem_append.mp hx with hx | hx
          · exact hg x hx
          · rw [List.mem_singleton.mp hx]; exact h)
      refine ⟨S', G', ?_, ?_, h1, h2⟩
      · rw [← e]; simp [Nat.add_assoc]
      · simpa using hp

theorem partition_spec (A M B : List α) (pivot : α) (hle : ∀ x ∈ M, le x pivot = .ok (decide (r x pivot))) :
    ∃ S G, partition le (A ++ (M ++ pivot :: B)) A.length (A.length + M.length + 1) = .ok (A ++ (S ++ pivot :: (G ++ B)), A.length + S.length) ∧
      (S ++ G).Perm M ∧ (∀ x ∈ S, r x pivot) ∧ (∀ x ∈ G, ¬ r x pivot) := by
  obtain ⟨S, G, e, hp, h1, h2⟩ := scan_spec le r pivot A (pivot :: B) M [] [] hle (by simp) (by simp)
  simp only [List.nil_append, List.length_nil, Nat.add_zero] at e hp
  have hget : get (A ++ (M ++ pivot :: B)) (A.length + M.length) = .ok pivot := by
    have := get_mid (A ++ M) B pivot
    simpa using this
  have hlen : M.length = S.length + G.length := by rw [← hp.length_eq, List.length_append]
  unfold partition
  rw [show A.length + M.length + 1 - 1 = A.length + M.length by omega, hget, C.bind_ok, show A.length + M.length - A.length = M.length by omega, e, C.bind_ok]
  dsimp only
  cases hG : G with
  | nil =>
    have hsw : swap (A ++ (S ++ ([] ++ pivot :: B))) (A.length + S.length) (A.length + M.length) = .ok (A ++ (S ++ pivot :: B)) := by
      have := swap_same (A ++ S) B pivot
      rw [hlen, hG]
      simpa using this
    rw [hsw, C.bind_ok]
    exact ⟨S, [], by simp, by rw [← hG]; exact hp, h1, by simp⟩
  | cons g G1 =>
    have hsw : swap (A ++ (S ++ (g :: G1 ++ pivot :: B))) (A.length + S.length) (A.length + M.length) = .ok (A ++ (S ++ pivot :: (G1 ++ [g] ++ B))) := by
      have := swap_mid (A ++ S) G1 B g pivot
      rw [hlen, hG]
      simpa [Nat.add_assoc, Nat.add_comm 1] using this
    rw [hsw, C.bind_ok]
    refine ⟨S, G1 ++ [g], rfl, ?_, h1, ?_⟩
    · refine List.Perm.trans (List.Perm.append_left S ?_) hp
      rw [hG]
      exact List.perm_append_comm (l₁ := G1) (l₂ := [g])
    · intro x hx
      refine h2 x ?_
      rw [hG]
      rcases List.mem_append.mp hx with hx | hx
      · exact List.mem_cons_of_mem _ hx
      · rw [List.mem_singleton.mp hx]; exact List.mem_cons_self

theorem quickSort_spec (htot : ∀ x y, r x y ∨ r y x) (htr : ∀ x y z, r x y → r y z → r x z) : ∀ (fuel : Nat) (A M B : List α), M.length < fuel →
    (∀ x ∈ M, ∀ y ∈ M, le x y = .ok (decide (r x y))) → ∃ M', quickSort le fuel (A ++ (M ++ B)) A.length (A.length + M.length) = .ok (A ++ (M' ++ B)) ∧ M'.Perm M ∧ M'.Pairwise r
  | 0, _, _, _, h, _ => by omega
  | fuel + 1, A, M, B, h, hle => by
    rw [quickSort]
    by_cases hM : A.length + 1 < A.length + M.length
    · rw [if_pos hM]
      obtain ⟨M0, pivot, rfl⟩ : ∃ M0 p, M = M0 ++ [p] := by
        rcases List.eq_nil_or_concat M with rfl | ⟨M0, p, rfl⟩
        · simp at hM
        · exact ⟨M0, p, List.concat_eq_append⟩
      obtain ⟨S, G, e, hp, h1, h2⟩ := partition_spec le r A M0 B pivot (fun x hx => hle x (by simp [hx]) pivot (by simp))
      have e' : partition le (A ++ (M0 ++ [pivot] ++ B)) A.length (A.length + (M0 ++ [pivot]).length) = .ok (A ++ (S ++ pivot :: (G ++ B)), A.length + S.length) := by
        rw [← e]; simp [Nat.add_assoc]
      rw [e', C.bind_ok]
      dsimp only
      have hlen : M0.length = S.length + G.length := by rw [← hp.length_eq, List.length_append]
      simp only [List.length_append, List.length_cons, List.length_nil] at h
      have hmemS : ∀ x ∈ S, x ∈ M0 := fun x hx => hp.mem_iff.mp (List.mem_append_left _ hx)
      have hmemG : ∀ x ∈ G, x ∈ M0 := fun x hx => hp.mem_iff.mp (List.mem_append_right _ hx)
      obtain ⟨S', es, ps, ss⟩ := quickSort_spec htot htr fuel A S (pivot :: (G ++ B)) (by omega) (fun x hx y hy => hle x (by simp [hmemS x hx]) y (by simp [hmemS y hy]))
      rw [es, C.bind_ok]
      obtain ⟨G', eg, pg, sg⟩ := quickSort_spec htot htr fuel (A ++ S' ++ [pivot]) G B (by omega) (fun x hx y hy => hle x (by simp [hmemG x hx]) y (by simp [hmemG y hy]))
      have eg' : quickSort le fuel (A ++ (S' ++ pivot :: (G ++ B))) (A.length + S.length + 1) (A.length + (M0 ++ [pivot]).length) = .ok (A ++ S' ++ [pivot] ++ (G' ++ B)) := by
        rw [← eg]
        simp only [List.length_append, List.length_cons, List.length_nil, ps.length_eq, List.append_assoc, List.singleton_append]
        congr 1
        omega
      rw [eg']
      refine ⟨S' ++ pivot :: G', by simp, ?_, ?_⟩
      · refine (ps.append (pg.cons pivot)).trans ?_
        exact List.perm_middle.trans ((hp.cons pivot).trans (List.perm_append_comm (l₁ := [pivot]) (l₂ := M0)))
      · rw [List.pairwise_append]
        refine ⟨ss, ?_, ?_⟩
        · rw [List.pairwise_cons]
          refine ⟨fun x hx => ?_, sg⟩
          have := h2 x (pg.mem_iff.mp hx)
          exact (htot x pivot).resolve_left this
        · intro x hx y hy
          have hxp := h1 x (ps.mem_iff.mp hx)
          rcases List.mem_cons.mp hy with rfl | hy
          · exact hxp
          · exact htr _ _ _ hxp ((htot y pivot).resolve_left (h2 y (pg.mem_iff.mp hy)))
    · rw [if_neg hM]
      refine ⟨M, rfl, List.Perm.refl _, ?_⟩
      rcases M with _ | ⟨x, _ | ⟨y, M⟩⟩
      · simp
      · simp
      · simp at hM

end KeySort

/-- `key` gives the serialization of every key in the list. -/
def SecOf (ks : List ECPoint) (key : ECPoint → Bytes) : Prop := ∀ p ∈ ks, ∃ P : Pt, p.Holds P ∧ key p = secOf p.compressed P

/-- Script.cpp `quickSort` on all of an array of valid public keys, whatever their number and order, with repetitions: it ends, stays inside the array, and the result
is a permutation in *descending* lexicographic order of the serializations. -/
theorem C96_sorts (ks : List ECPoint) (key : ECPoint → Bytes) (hk : SecOf ks key) (fuel : Nat) (hf : ks.length < fuel) :
    ∃ ks', KeySort.quickSort ECPoint.le fuel ks 0 ks.length = .ok ks' ∧ ks'.Perm ks ∧ (ks'.map key).Pairwise (fun a b => b ≤ a) := by
  obtain ⟨M, e, hp, hs⟩ := KeySort.quickSort_spec ECPoint.le (fun p q => key q ≤ key p) (fun x y => List.le_total _ _) (fun x y z h1 h2 => List.le_trans h2 h1) fuel [] ks [] hf (by
    intro x hx y hy
    obtain ⟨P, hP, eP⟩ := hk x hx
    obtain ⟨Q, hQ, eQ⟩ := hk y hy
    show (do return !(← y.lt x)) = _
    rw [ECPoint.C62_order y x Q P hQ hP, C.bind_ok, C.pure_eq, ← eP, ← eQ]
    congr 1
    by_cases h : key x < key y
    · simp [h]
    · simp [h, List.not_lt.mp h])
  refine ⟨M, by simpa using e, hp, ?_⟩
  rw [List.pairwise_map]
  exact hs

/-- BIP67 wants them ascending: this is what one gets from the end to the beginning … -/
theorem C96_reversed (ks : List ECPoint) (key : ECPoint → Bytes) (hk : SecOf ks key) (fuel : Nat) (hf : ks.length < fuel) :
    ∃ ks', KeySort.quickSort ECPoint.le fuel ks 0 ks.length = .ok ks' ∧ ks'.reverse.Perm ks ∧ (ks'.reverse.map key).Pairwise (· ≤ ·) := by
  obtain ⟨ks', e, hp, hs⟩ := C96_sorts ks key hk fuel hf
  exact ⟨ks', e, (List.reverse_perm ks').trans hp, by rw [List.map_reverse, List.pairwise_reverse]; exact hs⟩

/-- … and not from the beginning to the end, unless all keys are the same. -/
theorem C96_wrong_order (ks ks' : List ECPoint) (key : ECPoint → Bytes) (hk : SecOf ks key) (fuel : Nat) (hf : ks.length < fuel)
    (e : KeySort.quickSort ECPoint.le fuel ks 0 ks.length = .ok ks') (p q : ECPoint) (hp : p ∈ ks) (hq : q ∈ ks) (hne : key p ≠ key q) :
    ¬ (ks'.map key).Pairwise (· ≤ ·) := by
  obtain ⟨ks2, e2, hperm, hs⟩ := C96_sorts ks key hk fuel hf
  obtain rfl : ks' = ks2 := C.ok.inj (e.symm.trans e2)
  intro hasc
  have hboth : (ks'.map key).Pairwise (fun a b => a = b) := (hs.and hasc).imp (fun h => List.le_antisymm h.2 h.1)
  have : ∀ l : List Bytes, l.Pairwise (fun a b => a = b) → ∀ a ∈ l, ∀ b ∈ l, a = b := by
    intro l hl
    induction l with
    | nil => intro a ha; exact absurd ha (by simp)
    | cons x l ih =>
      rw [List.pairwise_cons] at hl
      intro a ha b hb
      rcases List.mem_cons.mp ha with h1 | h1 <;> rcases List.mem_cons.mp hb with h2 | h2
      · rw [h1, h2]
      · rw [h1]; exact hl.1 b h2
      · rw [h2]; exact (hl.1 a h1).symm
      · exact ih hl.2 a h1 b h2
  exact hne (this _ hboth _ (List.mem_map_of_mem (hperm.mem_iff.mpr hp)) _ (List.mem_map_of_mem (hperm.mem_iff.mpr hq)))

/-- Three keys of the same point, two compressed and one not. -/
example : ∃ (ks : List ECPoint) (key : ECPoint → Bytes) (p q : ECPoint), ks.length = 3 ∧ SecOf ks key ∧ p ∈ ks ∧ q ∈ ks ∧ key p ≠ key q := by
  refine ⟨[ECPoint.generator, { ECPoint.generator with compressed := false }, ECPoint.generator], fun p => secOf p.compressed G, ECPoint.generator,
    { ECPoint.generator with compressed := false }, rfl, ?_, by simp, by simp, ?_⟩
  · intro p hp
    refine ⟨G, ?_, rfl⟩
    simp only [List.mem_cons, List.not_mem_nil, or_false] at hp
    rcases hp with rfl | rfl | rfl <;> exact ECPoint.holds_generator
  · intro h
    exact absurd (ECPoint.secOf_inj G_ne_zero G_ne_zero h).1 (by decide)

end UB
