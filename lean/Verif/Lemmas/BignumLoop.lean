import Mathlib.Data.ZMod.Basic
import Mathlib.Tactic.LinearCombination
import Verif.Lemmas.BignumInverse

namespace UB
open Spec
namespace BN

/-! ### The loop -/

/-- What holds at the top of the loop, for the registers `odd` and `even`. -/
structure Inv (P x : Nat) (σ : ZMod P) (odd even : Combo) (k : Nat) : Prop where
  so : Shape odd
  se : Shape even
  top : Top odd
  o1 : odd.first % 2 = 1
  e1 : even.first ≠ 0
  sum : odd.first * odd.second + even.first * even.second = P
  relO : (x : ZMod P) * odd.second = σ * even.first * 2 ^ k
  relE : (x : ZMod P) * even.second = -σ * odd.first * 2 ^ k
  cop : Nat.Coprime odd.first even.first
  bound : odd.first * even.first * 2 ^ k < 2 ^ 512

theorem Inv.le_left {P x : Nat} {σ : ZMod P} {odd even : Combo} {k : Nat} (h : Inv P x σ odd even k) (hP : P < 2 ^ 256) :
    even.first * even.second < 2 ^ 256 := by have := h.sum; omega

/-- One subtraction keeps the invariant. -/
theorem Inv.step {P x : Nat} {σ : ZMod P} {odd even : Combo} {k : Nat} (h : Inv P x σ odd even k) (hP : P < 2 ^ 256)
    (he : even.first % 2 = 1) (hs : (odd.second + even.second) % 2 = 1) (hlt : odd.first < even.first) :
    ∃ e o, combine even odd = (e, o) ∧ Inv P x σ o e k ∧ e.first % 2 = 0 ∧ o.second % 2 = 1 := by
  have hsum := h.sum
  have htop : 2 ^ (32 * (odd.len1 - 1)) ≤ odd.first := h.top
  have hb : odd.second + even.second < 2 ^ (32 * (9 - odd.len1)) := by
    by_contra hc
    have h5 := Nat.mul_le_mul htop (Nat.le_of_not_lt hc)
    rw [← Nat.pow_add, show 32 * (odd.len1 - 1) + 32 * (9 - odd.len1) = 256 by have := h.so.pos; have := h.so.le; omega] at h5
    have h6 : odd.first * (odd.second + even.second) ≤ P := by
      rw [Nat.mul_add, ← hsum]
      exact Nat.add_le_add_left (Nat.mul_le_mul_right _ hlt.le) _
    omega
  obtain ⟨e, o, c1, c2, c3, c4, c5, c6, c7, c8⟩ := combine_spec even odd h.se h.so (len_le_of_first h.se h.top hlt.le) hlt.le hb
  have o1 := h.o1
  have hcast : (even.first : ZMod P) = e.first + odd.first := by rw [← c4]; push_cast; ring
  refine ⟨e, o, c1, ⟨c3, c2, ?_, by omega, by omega, ?_, ?_, ?_, ?_, ?_⟩, by omega, by omega⟩
  · unfold Top; rw [c6, c8]; exact htop
  · rw [c5, c6, c7, ← hsum, ← c4]; ring
  · rw [c7]
    push_cast
    have hO := h.relO
    have hE := h.relE
    rw [hcast] at hO
    linear_combination hO + hE
  · rw [c5, c6]; exact h.relE
  · have := h.cop
    rw [← c4] at this
    rw [c6]
    simpa using this
  · rw [c6]
    refine Nat.lt_of_le_of_lt ?_ h.bound
    gcongr
    omega

theorem loop_exit {P x : Nat} {σ : ZMod P} {odd even : Combo} {k : Nat} (h : Inv P x σ odd even k) (hP : P % 2 = 1) (hP1 : 1 < P)
    (ht : Top even) (heq : odd.first = even.first) :
    odd.first = 1 ∧ odd.len1 = 1 ∧ even.len1 = 1 ∧ (x : ZMod P) * odd.second = σ * 2 ^ k ∧ (x : ZMod P) * even.second = -σ * 2 ^ k ∧
      odd.second + even.second = P := by
  have hc := h.cop
  rw [heq, Nat.coprime_self] at hc
  have ho : odd.first = 1 := by omega
  have hone {c : Combo} (hs : Shape c) (ht : Top c) (h1 : c.first = 1) : c.len1 = 1 := by
    unfold Top at ht
    rw [h1] at ht
    have h2 : 2 ^ (32 * (c.len1 - 1)) = 1 := le_antisymm ht Nat.one_le_two_pow
    rw [Nat.pow_eq_one] at h2
    have := hs.pos
    omega
  have hO := h.relO
  have hE := h.relE
  have hS := h.sum
  rw [hc, Nat.cast_one, mul_one] at hO
  rw [ho, Nat.cast_one, mul_one] at hE
  rw [ho, hc] at hS
  exact ⟨ho, hone h.so h.top ho, hone h.se ht hc, hO, hE, by omega⟩

theorem lt_of_unit {P x s k : Nat} (σ : ZMod P) (hσ : σ = 1 ∨ σ = -1) (hP : P % 2 = 1) (hP1 : 1 < P) (hs : s ≤ P) (h : (x : ZMod P) * s = σ * 2 ^ k) : s < P := by
  rcases Nat.lt_or_ge s P with g | g
  · exact g
  · exfalso
    have : s = P := by omega
    rw [this, ZMod.natCast_self, mul_zero] at h
    have h2 : (2 : ZMod P) ^ k = 0 := by
      rcases hσ with rfl | rfl
      · simpa using h.symm
      · simpa using h.symm
    have h3 : ((2 ^ k : Nat) : ZMod P) = 0 := by push_cast; exact h2
    rw [ZMod.natCast_eq_zero_iff] at h3
    have hc : Nat.Coprime P (2 ^ k) := Nat.Coprime.pow_right _ (by rw [Nat.coprime_comm, Nat.coprime_two_left, Nat.odd_iff]; exact hP)
    have := Nat.eq_one_of_dvd_coprimes hc (dvd_refl P) h3
    omega

theorem inverseLoop_spec (P x : Nat) (hP : P < 2 ^ 256) (hodd : P % 2 = 1) (hP1 : 1 < P) (fuel : Nat) :
    ∀ (b : Bool) (odd even : Combo) (k : Nat), Inv P x (if b then 1 else -1) odd even k → odd.second % 2 = 1 → 512 + even.first % 2 ≤ k + fuel →
      ∃ us k', inverseLoop fuel (if b then odd else even) (if b then even else odd) b k = .ok (us, k') ∧ Shape us ∧ us.first = 1 ∧ us.len1 = 1 ∧
        us.second < P ∧ (x : ZMod P) * us.second = 2 ^ k' := by
  induction fuel with
  | zero =>
    intro b odd even k h ho2 hf
    exfalso
    have hb := h.bound
    have h1 := h.o1
    have h2 := h.e1
    have h3 : 1 ≤ odd.first * even.first := Nat.mul_pos (by omega) (by omega)
    have h4 : 2 ^ 512 ≤ 2 ^ k := Nat.pow_le_pow_right (by norm_num) (by omega)
    have h5 := Nat.mul_le_mul h3 h4
    omega
  | succ fuel ih =>
    intro b odd even k h ho2 hf
    obtain ⟨ev, t, m1, m2, m3, m4, m5, m6⟩ := makeOdd_spec even k h.se h.e1 (h.le_left hP)
    have hev0 : ev.first ≠ 0 := by omega
    -- the invariant with `even` made odd
    have hI : Inv P x (if b then 1 else -1) odd ev (k + t) := by
      refine ⟨h.so, m2, h.top, h.o1, hev0, ?_, ?_, ?_, ?_, ?_⟩
      · rw [m5, ← h.sum, m4]; ring
      · have := h.relO
        rw [m4] at this
        push_cast at this
        rw [this, pow_add]; ring
      · have := h.relE
        rw [m5]
        push_cast
        rw [pow_add]
        linear_combination 2 ^ t * this
      · have := h.cop
        rw [m4] at this
        exact Nat.Coprime.coprime_mul_left_right this
      · have := h.bound
        rw [m4] at this
        refine lt_of_eq_of_lt ?_ this
        rw [Nat.pow_add]; ring
    have hs2 : ev.second % 2 = 0 := by
      have h1 := hI.sum
      have h2 : (odd.first * odd.second) % 2 = 1 := by rw [Nat.mul_mod, h.o1, ho2]
      have h3 : (ev.first * ev.second) % 2 = 0 := by omega
      rw [Nat.mul_mod, m6] at h3
      omega
    have hfuel : 512 ≤ k + t + fuel := by
      rcases Nat.eq_zero_or_pos t with rfl | ht
      · rw [Nat.pow_zero, Nat.one_mul] at m4
        rw [m4] at hf
        omega
      · omega
    have b1 : bit0 (odd.a.headD 0) = true := by rw [bit0_first h.so]; simpa using h.o1
    have b2 : bit0 (odd.a.getD 8 0) = true := by rw [bit0_second h.so]; simpa using ho2
    have b3 : bit0 (ev.a.headD 0) = true := by rw [bit0_first m2]; simpa using m6
    have b4 : bit0 (ev.a.getD 8 0) = false := by rw [bit0_second m2]; simpa using hs2
    have post {e o : Combo} {σ : ZMod P} {k : Nat} (hi : Inv P x σ o e k) (he : e.first % 2 = 0) (h2 : o.second % 2 = 1) :
        require (bit0 (o.a.headD 0) && bit0 (o.a.getD 8 0) && !bit0 (e.a.headD 0)) = .ok () := by
      rw [bit0_first hi.so, bit0_second hi.so, bit0_first hi.se, hi.o1, h2, he]
      rfl
    have hO1 := hI.o1
    have key {σ : ZMod P} (hσ : σ = 1 ∨ σ = -1) (hI : Inv P x σ odd ev (k + t)) :
        (odd.first < ev.first → ∃ e o, combine ev odd = (e, o) ∧ Inv P x σ o e (k + t) ∧ e.first % 2 = 0 ∧ o.second % 2 = 1) ∧
        (ev.first < odd.first → ∃ e o, combine odd ev = (e, o) ∧ Inv P x (-σ) o e (k + t) ∧ e.first % 2 = 0 ∧ o.second % 2 = 1) := by
      constructor
      · intro g
        exact hI.step hP m6 (by omega) g
      · intro g
        have hI2 : Inv P x (-σ) ev odd (k + t) := by
          refine ⟨m2, h.so, m3, m6, by omega, ?_, ?_, ?_, hI.cop.symm, ?_⟩
          · rw [Nat.add_comm]; exact hI.sum
          · exact hI.relE
          · rw [neg_neg]; exact hI.relO
          · rw [Nat.mul_comm ev.first]; exact hI.bound
        exact hI2.step hP hO1 (by omega) g
    cases b with
    | true =>
      simp only [if_true] at hI ⊢
      obtain ⟨key1, key2⟩ := key (Or.inl rfl) hI
      have hcmp := cmpFirst_spec odd ev h.so m2 h.top m3
      unfold inverseLoop
      simp only [if_true, b1, b2, Bool.and_self, require, C.bind_ok, m1, b3, b4, Bool.not_false]
      rw [hcmp]
      rcases Nat.lt_trichotomy odd.first ev.first with g | g | g
      · rw [Nat.compare_eq_lt.mpr g]
        obtain ⟨e, o, c1, c2, c3, c4⟩ := key1 g
        have pp := post c2 c3 c4
        simp only [c1]
        unfold require at pp
        rw [pp, C.bind_ok]
        have := ih true o e (k + t) (by simpa using c2) c4 (by omega)
        simpa using this
      · rw [Nat.compare_eq_eq.mpr g]
        obtain ⟨x1, x2, x3, x4, x5, x6⟩ := loop_exit hI hodd hP1 m3 g
        exact ⟨odd, k + t, rfl, h.so, x1, x2, lt_of_unit 1 (Or.inl rfl) hodd hP1 (by omega) x4, by rw [x4, one_mul]⟩
      · rw [Nat.compare_eq_gt.mpr g]
        obtain ⟨e, o, c1, c2, c3, c4⟩ := key2 g
        have pp := post c2 c3 c4
        simp only [c1]
        unfold require at pp
        rw [pp, C.bind_ok]
        have := ih false o e (k + t) (by simpa using c2) c4 (by omega)
        simpa using this
    | false =>
      simp only [Bool.false_eq_true, if_false] at hI ⊢
      obtain ⟨key1, key2⟩ := key (Or.inr rfl) hI
      have hcmp := cmpFirst_spec ev odd m2 h.so m3 h.top
      unfold inverseLoop
      simp only [Bool.false_eq_true, if_false, if_true, b1, b2, Bool.and_self, require, C.bind_ok, m1, b3, b4, Bool.not_false]
      rw [hcmp]
      rcases Nat.lt_trichotomy odd.first ev.first with g | g | g
      · rw [Nat.compare_eq_gt.mpr g]
        obtain ⟨e, o, c1, c2, c3, c4⟩ := key1 g
        have pp := post c2 c3 c4
        simp only [c1]
        unfold require at pp
        rw [pp, C.bind_ok]
        have := ih false o e (k + t) (by simpa using c2) c4 (by omega)
        simpa using this
      · rw [Nat.compare_eq_eq.mpr g.symm]
        obtain ⟨x1, x2, x3, x4, x5, x6⟩ := loop_exit hI hodd hP1 m3 g
        exact ⟨ev, k + t, rfl, m2, by omega, x3, lt_of_unit 1 (Or.inl rfl) hodd hP1 (by omega) (by rw [x5, neg_neg]), by rw [x5, neg_neg, one_mul]⟩
      · rw [Nat.compare_eq_lt.mpr g]
        obtain ⟨e, o, c1, c2, c3, c4⟩ := key2 g
        have pp := post c2 c3 c4
        simp only [c1]
        unfold require at pp
        rw [pp, C.bind_ok]
        have := ih true o e (k + t) (by simpa using c2) c4 (by omega)
        simpa using this

end BN
end UB
