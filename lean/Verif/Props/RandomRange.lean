import Verif.Model.Random
import Verif.Lemmas.Ints
import Mathlib.Data.List.Nodup

/-
C90: random numbers of a range, and random permutations.
-/

namespace UB
open Spec

/-! ### `random_uniform` -/

/-- The number of words that go to each number below `n`. -/
def share (n : Nat) : Nat := (2 ^ 32 - 1) / n

theorem uniformLoop_iff (draws : Nat → UInt32) (max x : UInt32) (fuel k k' : Nat) :
    uniformLoop draws max fuel k = some (x, k') ↔
      ∃ j, k ≤ j ∧ j < k + fuel ∧ k' = j + 1 ∧ (∀ i, k ≤ i → i < j → max ≤ draws i) ∧ draws j < max ∧ x = draws j := by
  induction fuel generalizing k with
  | zero =>
    simp only [uniformLoop]
    constructor
    · intro h; cases h
    · rintro ⟨j, h1, h2, -⟩; omega
  | succ fuel ih =>
    simp only [uniformLoop]
    by_cases h : max ≤ draws k
    · rw [if_pos h, ih]
      constructor
      · rintro ⟨j, h1, h2, h3, h4, h5⟩
        refine ⟨j, by omega, by omega, h3, ?_, h5⟩
        intro i hi hj
        by_cases hk : i = k
        · rw [hk]; exact h
        · exact h4 i (by omega) hj
      · rintro ⟨j, h1, h2, h3, h4, h5, h6⟩
        have hk : j ≠ k := by
          rintro rfl
          exact absurd h (UInt32.not_le.2 h5)
        exact ⟨j, by omega, by omega, h3, fun i hi hj => h4 i (by omega) hj, h5, h6⟩
    · rw [if_neg h]
      constructor
      · intro he
        injection he with he
        injection he with e1 e2
        exact ⟨k, by omega, by omega, e2.symm, fun i hi hj => by omega, UInt32.not_le.1 h, e1.symm⟩
      · rintro ⟨j, h1, h2, h3, h4, h5, h6⟩
        have hk : j = k := by
          by_cases hk : j = k
          · exact hk
          · exact absurd (h4 k (by omega) (by omega)) h
        subst hk
        rw [h3, h6]

theorem uniformLoop_none (draws : Nat → UInt32) (max : UInt32) (fuel k : Nat) :
    uniformLoop draws max fuel k = none ↔ ∀ i, k ≤ i → i < k + fuel → max ≤ draws i := by
  induction fuel generalizing k with
  | zero => simp only [uniformLoop]; exact ⟨fun _ i h1 h2 => by omega, fun _ => trivial⟩
  | succ fuel ih =>
    simp only [uniformLoop]
    by_cases h : max ≤ draws k
    · rw [if_pos h, ih]
      constructor
      · intro g i h1 h2
        by_cases hk : i = k
        · rw [hk]; exact h
        · exact g i (by omega) (by omega)
      · intro g i h1 h2; exact g i (by omega) (by omega)
    · rw [if_neg h]
      constructor
      · intro g; cases g
      · intro g; exact absurd (g k (by omega) (by omega)) h

theorem limit_toNat (n : UInt32) : (0xFFFFFFFF - (0xFFFFFFFF % n) : UInt32).toNat = share n.toNat * n.toNat := by
  have h1 : (0xFFFFFFFF % n : UInt32).toNat = (2 ^ 32 - 1) % n.toNat := by rw [UInt32.toNat_mod]; rfl
  have h2 : (0xFFFFFFFF % n : UInt32) ≤ 0xFFFFFFFF := by
    rw [UInt32.le_iff_toNat_le, h1]
    exact Nat.mod_le _ _
  rw [UInt32.toNat_sub_of_le _ _ h2, h1]
  have := Nat.div_add_mod (2 ^ 32 - 1) n.toNat
  have h3 : (0xFFFFFFFF : UInt32).toNat = 2 ^ 32 - 1 := rfl
  rw [h3]
  unfold share
  rw [Nat.mul_comm ((2 ^ 32 - 1) / n.toNat)]
  omega

theorem share_pos {n : UInt32} (h : n ≠ 0) : 0 < n.toNat ∧ 0 < share n.toNat := by
  have h1 : n.toNat ≠ 0 := fun hh => h (UInt32.toNat_inj.1 hh)
  have h2 := n.toNat_lt
  exact ⟨by omega, Nat.div_pos (by omega) (by omega)⟩

theorem quot_toNat {n : UInt32} (h : n ≠ 0) : ((0xFFFFFFFF - (0xFFFFFFFF % n)) / n : UInt32).toNat = share n.toNat := by
  rw [UInt32.toNat_div, limit_toNat, Nat.mul_div_cancel _ (share_pos h).1]

theorem randomUniform_eq (draws : Nat → UInt32) (fuel k : Nat) (n : UInt32) (h : n ≠ 0) :
    randomUniform draws fuel k n = match uniformLoop draws (0xFFFFFFFF - (0xFFFFFFFF % n)) fuel k with
      | none => .ok none
      | some (x, k) => .ok (some (x / ((0xFFFFFFFF - (0xFFFFFFFF % n)) / n), k)) := by
  unfold randomUniform
  rw [if_neg h]
  dsimp only
  have : ((0xFFFFFFFF - (0xFFFFFFFF % n)) / n : UInt32) ≠ 0 := by
    intro hh
    have := congrArg UInt32.toNat hh
    rw [quot_toNat h] at this
    have := (share_pos h).2
    have h0 : (0 : UInt32).toNat = 0 := rfl
    omega
  rcases uniformLoop draws (0xFFFFFFFF - (0xFFFFFFFF % n)) fuel k with _ | ⟨x, k⟩
  · rfl
  · dsimp only; rw [if_neg this]

/-- C90: `random_uniform(n)` drops the words from `share n * n` on, and the first other one gives the number below `n`: exactly the `share n` words
from `v * share n` on give `v`, so all numbers below `n` get equally many words. -/
theorem C90_uniform (draws : Nat → UInt32) (fuel k k' : Nat) (n v : UInt32) (hn : n ≠ 0) :
    randomUniform draws fuel k n = .ok (some (v, k')) ↔
      v < n ∧ ∃ j, k ≤ j ∧ j < k + fuel ∧ k' = j + 1 ∧ (∀ i, k ≤ i → i < j → share n.toNat * n.toNat ≤ (draws i).toNat) ∧
        v.toNat * share n.toNat ≤ (draws j).toNat ∧ (draws j).toNat < (v.toNat + 1) * share n.toNat := by
  have hq := (share_pos hn).2
  have key : ∀ x : UInt32, x.toNat < share n.toNat * n.toNat →
      (x / ((0xFFFFFFFF - (0xFFFFFFFF % n)) / n)).toNat = x.toNat / share n.toNat ∧ x.toNat / share n.toNat < n.toNat := by
    intro x hx
    rw [UInt32.toNat_div, quot_toNat hn]
    exact ⟨rfl, (Nat.div_lt_iff_lt_mul hq).2 (by rw [Nat.mul_comm]; exact hx)⟩
  rw [randomUniform_eq draws fuel k n hn]
  constructor
  · intro h
    rcases hl : uniformLoop draws (0xFFFFFFFF - (0xFFFFFFFF % n)) fuel k with _ | ⟨x, k2⟩
    · rw [hl] at h; cases h
    · rw [hl] at h
      dsimp only at h
      injection h with h; injection h with h; injection h with e1 e2
      obtain ⟨j, h1, h2, h3, h4, h5, h6⟩ := (uniformLoop_iff draws _ x fuel k k2).1 hl
      have hx : (draws j).toNat < share n.toNat * n.toNat := by
        rw [← limit_toNat]; exact UInt32.lt_iff_toNat_lt.1 h5
      obtain ⟨g1, g2⟩ := key _ hx
      rw [← h6, e1, h6] at g1
      refine ⟨UInt32.lt_iff_toNat_lt.2 (by rw [g1]; exact g2), j, h1, h2, by omega, ?_, ?_, ?_⟩
      · intro i hi hj
        rw [← limit_toNat]; exact UInt32.le_iff_toNat_le.1 (h4 i hi hj)
      · rw [g1]; exact Nat.div_mul_le_self _ _
      · rw [g1, Nat.mul_comm]; exact Nat.lt_mul_div_succ _ hq
  · rintro ⟨hv, j, h1, h2, h3, h4, h5, h6⟩
    have hv' : v.toNat + 1 ≤ n.toNat := UInt32.lt_iff_toNat_lt.1 hv
    have hx : (draws j).toNat < share n.toNat * n.toNat :=
      Nat.lt_of_lt_of_le h6 (by rw [Nat.mul_comm]; exact Nat.mul_le_mul_left _ hv')
    have hl := (uniformLoop_iff draws (0xFFFFFFFF - (0xFFFFFFFF % n)) (draws j) fuel k k').2
      ⟨j, h1, h2, h3, fun i hi hj => UInt32.le_iff_toNat_le.2 (by rw [limit_toNat]; exact h4 i hi hj),
        UInt32.lt_iff_toNat_lt.2 (by rw [limit_toNat]; exact hx), rfl⟩
    rw [hl]
    dsimp only
    congr 3
    apply UInt32.toNat_inj.1
    rw [(key _ hx).1]
    have a1 := Nat.div_mul_le_self (draws j).toNat (share n.toNat)
    exact Nat.div_eq_of_lt_le h5 h6

/-- C90: for `n ≠ 0` nothing is undefined, and the search goes on only over words from `share n * n` on, fewer than `n + 1` of all 2^32. -/
theorem C90_uniform_pending (draws : Nat → UInt32) (fuel k : Nat) (n : UInt32) (hn : n ≠ 0) :
    randomUniform draws fuel k n ≠ .ub ∧ 2 ^ 32 ≤ share n.toNat * n.toNat + n.toNat ∧
      (randomUniform draws fuel k n = .ok none ↔ ∀ i, k ≤ i → i < k + fuel → share n.toNat * n.toNat ≤ (draws i).toNat) := by
  rw [randomUniform_eq draws fuel k n hn]
  have hl := uniformLoop_none draws (0xFFFFFFFF - (0xFFFFFFFF % n)) fuel k
  refine ⟨?_, ?_, ?_⟩
  · rcases uniformLoop draws (0xFFFFFFFF - (0xFFFFFFFF % n)) fuel k with _ | ⟨x, k⟩ <;> (intro h; cases h)
  · have h1 := Nat.div_add_mod (2 ^ 32 - 1) n.toNat
    have h2 := Nat.mod_lt (2 ^ 32 - 1) (share_pos hn).1
    unfold share
    rw [Nat.mul_comm]
    omega
  · constructor
    · intro h i h1 h2
      rw [← limit_toNat]
      refine UInt32.le_iff_toNat_le.1 (hl.1 ?_ i h1 h2)
      rcases hh : uniformLoop draws (0xFFFFFFFF - (0xFFFFFFFF % n)) fuel k with _ | ⟨x, k⟩
      · rfl
      · rw [hh] at h; cases h
    · intro h
      rw [hl.2 fun i h1 h2 => UInt32.le_iff_toNat_le.2 (by rw [limit_toNat]; exact h i h1 h2)]

/-- C90: `random_uniform(0)` is undefined. -/
theorem C90_uniform_zero (draws : Nat → UInt32) (fuel k : Nat) : randomUniform draws fuel k 0 = .ub := rfl

/-- C90 (finding): with the `rand()` of a PC, whose values are below 2^31, numbers above `n / 2` are never drawn, for all `n` up to 65535. -/
theorem C90_uniform_pc (r : Nat → Nat) (hr : ∀ i, r i < 2 ^ 31) (fuel k k' : Nat) (n v : UInt32) (hn : n ≠ 0) (hs : n.toNat < 65536)
    (h : randomUniform (fun i => random32Pc (r i)) fuel k n = .ok (some (v, k'))) : 2 * v.toNat ≤ n.toNat := by
  obtain ⟨-, j, -, -, -, -, h5, -⟩ := (C90_uniform _ fuel k k' n v hn).1 h
  have h3 := hr j
  have h4 : (random32Pc (r j)).toNat = r j := UInt32.toNat_ofNat_of_lt' (Nat.lt_of_lt_of_le h3 (by decide))
  rw [h4] at h5
  obtain ⟨p1, p2⟩ := share_pos hn
  have h6 := Nat.div_add_mod (2 ^ 32 - 1) n.toNat
  have h7 := Nat.mod_lt (2 ^ 32 - 1) p1
  have h8 : n.toNat ≤ share n.toNat := by
    unfold share
    rw [Nat.le_div_iff_mul_le p1]
    calc n.toNat * n.toNat ≤ 65535 * 65535 := Nat.mul_le_mul (by omega) (by omega)
      _ ≤ 2 ^ 32 - 1 := by decide
  by_cases hc : 2 * v.toNat ≤ n.toNat
  · exact hc
  · exfalso
    have h9 : (n.toNat + 1) * share n.toNat ≤ 2 * v.toNat * share n.toNat := Nat.mul_le_mul_right _ (by omega)
    rw [Nat.add_mul, Nat.one_mul, Nat.mul_assoc] at h9
    change n.toNat * share n.toNat + _ = _ at h6
    omega

example : randomUniform (fun i => if i = 0 then 0xFFFFFFFF else 0xFFFFFFFE - 1) 5 0 2 = .ok (some (1, 2)) := by decide

/-! ### `random_permute` -/

/-- Exchange of two places. -/
def swapAt (l : Bytes) (i j : Nat) : Bytes := (l.set j (l.getD i 0)).set i (l.getD j 0)

/-- Exchanges of place `i` with the first of the given places, of `i - 1` with the second, and so on. -/
def shuffle : Nat → List Nat → Bytes → Bytes
  | i + 1, j :: js, l => shuffle i js (swapAt l (i + 1) j)
  | _, _, l => l

/-- One place up to `i`, one up to `i - 1`, …, one up to 1. -/
def Choice : Nat → List Nat → Prop
  | 0, js => js = []
  | i + 1, js => ∃ j t, js = j :: t ∧ j ≤ i + 1 ∧ Choice i t

/-- The results of `random_uniform` for `i + 1`, `i`, …, 2, in this order. -/
def Drawn (draws : Nat → UInt32) (fuel : Nat) : Nat → Nat → List Nat → Nat → Prop
  | 0, k, js, k' => js = [] ∧ k' = k
  | i + 1, k, js, k' => ∃ (j : UInt32) (t : List Nat) (m : Nat), js = j.toNat :: t ∧ randomUniform draws fuel k (UInt32.ofNat (i + 2)) = .ok (some (j, m)) ∧
      Drawn draws fuel i m t k'

theorem length_swapAt (l : Bytes) (i j : Nat) : (swapAt l i j).length = l.length := by simp [swapAt]

theorem getElem?_swapAt (l : Bytes) (i j t : Nat) (hi : i < l.length) (hj : j < l.length) :
    (swapAt l i j)[t]? = if t = i then l[j]? else if t = j then l[i]? else l[t]? := by
  unfold swapAt
  rw [List.getElem?_set, List.getElem?_set, List.length_set]
  by_cases h1 : t = i
  · subst h1
    rw [if_pos rfl, if_pos hi, if_pos rfl, List.getD_eq_getElem?_getD, List.getElem?_eq_getElem hj]; rfl
  · rw [if_neg (Ne.symm h1), if_neg h1]
    by_cases h2 : t = j
    · subst h2
      rw [if_pos rfl, if_pos hj, if_pos rfl, List.getD_eq_getElem?_getD, List.getElem?_eq_getElem hi]; rfl
    · rw [if_neg (Ne.symm h2), if_neg h2]

theorem swapAt_perm (l : Bytes) (i j : Nat) (hi : i < l.length) (hj : j < l.length) : (swapAt l i j).Perm l := by
  unfold swapAt
  rw [List.getD_eq_getElem?_getD, List.getElem?_eq_getElem hi, List.getD_eq_getElem?_getD, List.getElem?_eq_getElem hj]
  exact List.set_set_perm hj hi

theorem shuffle_perm (i : Nat) (js : List Nat) (l : Bytes) (hi : i < l.length ∨ i = 0) (hc : Choice i js) : (shuffle i js l).Perm l := by
  induction i generalizing js l with
  | zero => rw [hc]; exact .refl _
  | succ i ih =>
    obtain ⟨j, t, rfl, hj, ht⟩ := hc
    have hi : i + 1 < l.length := by omega
    simp only [shuffle]
    exact (ih t _ (.inl (by rw [length_swapAt]; omega)) ht).trans (swapAt_perm l _ _ hi (by omega))

theorem shuffle_above (i : Nat) (js : List Nat) (l : Bytes) (hi : i < l.length ∨ i = 0) (hc : Choice i js) (t : Nat) (ht : i < t) : (shuffle i js l)[t]? = l[t]? := by
  induction i generalizing js l with
  | zero => rw [hc]; rfl
  | succ i ih =>
    obtain ⟨j, s, rfl, hj, hs⟩ := hc
    have hi : i + 1 < l.length := by omega
    simp only [shuffle]
    rw [ih s _ (.inl (by rw [length_swapAt]; omega)) hs (by omega), getElem?_swapAt l _ _ _ hi (by omega), if_neg (by omega), if_neg (by omega)]

theorem nodup_index {l : Bytes} (h : l.Nodup) {i j : Nat} {x : UInt8} (hi : l[i]? = some x) (hj : l[j]? = some x) : i = j := by
  obtain ⟨a, ha⟩ := List.getElem?_eq_some_iff.1 hi
  obtain ⟨b, hb⟩ := List.getElem?_eq_some_iff.1 hj
  exact (List.Nodup.getElem_inj_iff h).1 (ha.trans hb.symm)

theorem shuffle_unique (i : Nat) (l p : Bytes) (hi : i < l.length ∨ i = 0) (hl : l.Nodup) (hp : p.Perm l) (ha : ∀ t, i < t → p[t]? = l[t]?) :
    ∃ js, (Choice i js ∧ shuffle i js l = p) ∧ ∀ js', Choice i js' ∧ shuffle i js' l = p → js' = js := by
  induction i generalizing l with
  | zero =>
    refine ⟨[], ⟨rfl, ?_⟩, fun js' h => h.1⟩
    have hlen := hp.length_eq
    cases l with
    | nil => simp [shuffle, List.eq_nil_of_length_eq_zero hlen]
    | cons x l =>
      cases p with
      | nil => simp at hlen
      | cons y p =>
        have : p = l := by
          apply List.ext_getElem?
          intro t
          simpa using ha (t + 1) (by omega)
        subst this
        have hy : y ∈ x :: p := hp.mem_iff.1 (by simp)
        have hn := (List.nodup_cons.1 (hp.nodup_iff.2 hl)).1
        rcases List.mem_cons.1 hy with rfl | hy
        · rfl
        · exact absurd hy hn
  | succ i ih =>
    have hi : i + 1 < l.length := by omega
    have hlen := hp.length_eq
    have hpn : p.Nodup := hp.nodup_iff.2 hl
    have hx : p[i + 1]? = some (p[i + 1]'(by omega)) := List.getElem?_eq_getElem (by omega)
    obtain ⟨j, hj⟩ := List.mem_iff_getElem?.1 (hp.mem_iff.1 (List.getElem_mem (l := p) (n := i + 1) (by omega)))
    have hjl : j < l.length := (List.getElem?_eq_some_iff.1 hj).1
    have hji : j ≤ i + 1 := by
      by_cases h : j ≤ i + 1
      · exact h
      · have := nodup_index hpn ((ha j (by omega)).trans hj) hx
        omega
    obtain ⟨js, ⟨h1, h2⟩, h3⟩ := ih (swapAt l (i + 1) j) (.inl (by rw [length_swapAt]; omega))
      ((swapAt_perm l _ _ hi hjl).nodup_iff.2 hl) (hp.trans (swapAt_perm l _ _ hi hjl).symm) (by
        intro t ht
        rw [getElem?_swapAt l _ _ _ hi hjl]
        by_cases h : t = i + 1
        · rw [if_pos h, h, hx, hj]
        · rw [if_neg h, if_neg (by omega)]
          exact ha t (by omega))
    refine ⟨j :: js, ⟨⟨j, js, rfl, hji, h1⟩, h2⟩, ?_⟩
    rintro js' ⟨⟨j', t, rfl, hj', ht⟩, h5⟩
    simp only [shuffle] at h5
    have h6 := shuffle_above i t (swapAt l (i + 1) j') (.inl (by rw [length_swapAt]; omega)) ht (i + 1) (by omega)
    rw [h5, getElem?_swapAt l _ _ _ hi (by omega), if_pos rfl, hx] at h6
    have : j' = j := nodup_index hl h6.symm hj
    subst this
    rw [h3 t ⟨ht, h5⟩]

theorem byteAt_getD (l : Bytes) (i : Nat) (h : i < l.length) : byteAt l i = .ok (l.getD i 0) := by
  unfold byteAt
  rw [List.getD_eq_getElem?_getD, List.getElem?_eq_getElem h]; rfl

theorem store_set (l : Bytes) (i : Nat) (x : UInt8) (h : i < l.length) : store l i [x] = .ok (l.set i x) := by
  unfold store
  rw [if_pos (by rw [List.length_singleton]; omega), List.set_eq_take_append_cons_drop, if_pos h]
  simp

theorem count_toNat {i : Nat} (h : i + 2 < 2 ^ 32) : (UInt32.ofNat (i + 2)).toNat = i + 2 ∧ UInt32.ofNat (i + 2) ≠ 0 := by
  have h1 : (UInt32.ofNat (i + 2)).toNat = i + 2 := UInt32.toNat_ofNat_of_lt' h
  refine ⟨h1, ?_⟩
  intro h2
  rw [h2] at h1
  have h0 : (0 : UInt32).toNat = 0 := rfl
  omega

theorem permuteLoop_iff (draws : Nat → UInt32) (fuel i k k' : Nat) (l p : Bytes) (hi : i < l.length ∨ i = 0) (hs : i < 2 ^ 31) :
    permuteLoop draws fuel i k l ≠ .ub ∧
    (permuteLoop draws fuel i k l = .ok (some (p, k')) ↔ ∃ js, Drawn draws fuel i k js k' ∧ p = shuffle i js l) ∧
    ∀ js, Drawn draws fuel i k js k' → Choice i js := by
  induction i generalizing l k with
  | zero =>
    simp only [permuteLoop, Drawn, Choice]
    refine ⟨(by intro h; cases h), ⟨?_, ?_⟩, fun js h => h.1⟩
    · intro h
      injection h with h; injection h with h; injection h with h1 h2
      exact ⟨[], ⟨rfl, h2.symm⟩, h1.symm⟩
    · rintro ⟨js, ⟨rfl, rfl⟩, rfl⟩; rfl
  | succ i ih =>
    have hi : i + 1 < l.length := by omega
    obtain ⟨c1, c2⟩ := count_toNat (i := i) (by omega)
    have hlt : ∀ j m, randomUniform draws fuel k (UInt32.ofNat (i + 2)) = .ok (some (j, m)) → j.toNat ≤ i + 1 := by
      intro j m h
      have := UInt32.lt_iff_toNat_lt.1 ((C90_uniform draws fuel k m _ j c2).1 h).1
      omega
    have hstep : ∀ j m, randomUniform draws fuel k (UInt32.ofNat (i + 2)) = .ok (some (j, m)) →
        permuteLoop draws fuel (i + 1) k l = permuteLoop draws fuel i m (swapAt l (i + 1) j.toNat) := by
      intro j m h
      have hj := hlt j m h
      simp only [permuteLoop]
      rw [h, C.bind_ok]
      dsimp only
      rw [byteAt_getD l _ (by omega), C.bind_ok, byteAt_getD l _ hi, C.bind_ok, store_set l _ _ (by omega), C.bind_ok,
        store_set _ _ _ (by rw [List.length_set]; exact hi), C.bind_ok]
      rfl
    have hub := (C90_uniform_pending draws fuel k _ c2).1
    rcases hu : randomUniform draws fuel k (UInt32.ofNat (i + 2)) with (_ | ⟨j, m⟩) | _
    · have h0 : permuteLoop draws fuel (i + 1) k l = .ok none := by
        simp only [permuteLoop]; rw [hu, C.bind_ok]; rfl
      rw [h0]
      simp only [Drawn, hu]
      refine ⟨(by intro h; cases h), ⟨(by intro h; cases h), ?_⟩, ?_⟩
      · rintro ⟨js, ⟨j, t, m, -, h, -⟩, -⟩; cases h
      · rintro js ⟨j, t, m, -, h, -⟩; cases h
    · rw [hstep j m hu]
      obtain ⟨g1, g2, g3⟩ := ih m (swapAt l (i + 1) j.toNat) (.inl (by rw [length_swapAt]; omega)) (by omega)
      refine ⟨g1, ?_, ?_⟩
      · rw [g2]
        constructor
        · rintro ⟨js, h1, h2⟩
          exact ⟨j.toNat :: js, ⟨j, js, m, rfl, hu, h1⟩, h2⟩
        · rintro ⟨js, ⟨j', t, m', rfl, h1, h2⟩, h3⟩
          rw [hu] at h1
          injection h1 with h1; injection h1 with h1; injection h1 with e1 e2
          subst e1 e2
          exact ⟨t, h2, h3⟩
      · rintro js ⟨j', t, m', rfl, h1, h2⟩
        have hj' := hlt j' m' h1
        rw [hu] at h1
        injection h1 with h1; injection h1 with h1; injection h1 with e1 e2
        subst e1 e2
        exact ⟨_, t, rfl, hj', g3 t h2⟩
    · exact absurd hu hub

/-- C90: `random_permute` is the Fisher–Yates shuffle by the numbers that `random_uniform` gives for `len`, `len - 1`, …, 2; it stays within the
characters and gives them back in another order. -/
theorem C90_permute (draws : Nat → UInt32) (fuel k k' : Nat) (str p : Bytes) (hs : str.length < 2 ^ 31) :
    randomPermute draws fuel k str ≠ .ub ∧
    (randomPermute draws fuel k str = .ok (some (p, k')) ↔ ∃ js, Drawn draws fuel (str.length - 1) k js k' ∧ p = shuffle (str.length - 1) js str) ∧
    (randomPermute draws fuel k str = .ok (some (p, k')) → p.Perm str) := by
  have hi : str.length - 1 < str.length ∨ str.length - 1 = 0 := by omega
  obtain ⟨h1, h2, h3⟩ := permuteLoop_iff draws fuel (str.length - 1) k k' str p hi (by omega)
  refine ⟨h1, h2, ?_⟩
  intro h
  obtain ⟨js, g1, rfl⟩ := h2.1 h
  exact shuffle_perm _ js str hi (h3 js g1)

/-- C90: the shuffle is fair: of distinct characters every order comes from exactly one choice of the numbers, so that when `random_uniform` is uniform
all orders are equally likely. -/
theorem C90_permute_fair (str p : Bytes) (hn : str.Nodup) (hp : p.Perm str) :
    ∃ js, (Choice (str.length - 1) js ∧ shuffle (str.length - 1) js str = p) ∧
      ∀ js', Choice (str.length - 1) js' ∧ shuffle (str.length - 1) js' str = p → js' = js := by
  refine shuffle_unique _ str p (by omega) hn hp ?_
  intro t ht
  have := hp.length_eq
  rw [List.getElem?_eq_none (by omega), List.getElem?_eq_none (by omega)]

/-- Three characters: the draws 2^31 and 2^31 choose the places 1 and 1. -/
example : randomPermute (fun _ => 0x80000000) 5 0 [0x61, 0x62, 0x63] = .ok (some ([0x61, 0x63, 0x62], 2)) := by decide +kernel

example : ∃ js, (Choice 2 js ∧ shuffle 2 js [0x61, 0x62, 0x63] = [0x62, 0x63, 0x61]) ∧ ∀ js', Choice 2 js' ∧ shuffle 2 js' [0x61, 0x62, 0x63] = [0x62, 0x63, 0x61] → js' = js :=
  C90_permute_fair [0x61, 0x62, 0x63] [0x62, 0x63, 0x61] (by decide) (by decide)

end UB
