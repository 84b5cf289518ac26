import Mathlib.NumberTheory.LucasPrimality
import Mathlib.Tactic.NormNum.Prime
import Mathlib.Algebra.BigOperators.Group.List.Basic
import Verif.Spec.Secp256k1

/-
The field size and the group order of secp256k1 are prime: certificates checked with Lucas' criterion.
-/

namespace UB
open Spec

/-- `acc * b ^ e` modulo `m` by repeated squaring; `fuel` bounds the bits of `e`. -/
def powMod (m : Nat) : Nat → Nat → Nat → Nat → Nat
  | 0, _, _, acc => acc % m
  | fuel + 1, b, e, acc => powMod m fuel (b * b % m) (e / 2) (if e % 2 = 1 then acc * b % m else acc)

theorem powMod_spec (m fuel : Nat) : ∀ b e acc, e < 2 ^ fuel → powMod m fuel b e acc = acc * b ^ e % m := by
  induction fuel with
  | zero => intro b e acc h; have : e = 0 := by simpa using h
            subst this; simp [powMod]
  | succ fuel ih =>
    intro b e acc h
    rw [powMod, ih _ _ _ (by rw [Nat.pow_succ] at h; omega)]
    have h1 : (b * b % m) ^ (e / 2) ≡ (b * b) ^ (e / 2) [MOD m] := (Nat.mod_modEq _ _).pow _
    have h2 : (b * b) ^ (e / 2) * b ^ (e % 2) = b ^ e := by
      rw [← Nat.pow_two, ← Nat.pow_mul, ← Nat.pow_add, Nat.div_add_mod]
    split
    · rename_i ho
      rw [ho, Nat.pow_one] at h2
      have h3 := ((Nat.mod_modEq (acc * b) m).mul h1)
      rw [h3]
      rw [← h2]
      ring_nf
    · rename_i ho
      rw [show e % 2 = 0 by omega, Nat.pow_zero, Nat.mul_one] at h2
      have h3 := ((Nat.ModEq.refl acc (n := m)).mul h1)
      rw [h3, h2]

theorem lucas_list (p a : Nat) (fs : List Nat) (hfs : ∀ q ∈ fs, q.Prime) (hp : fs.prod + 1 = p ∧ p - 1 < 2 ^ 256 ∧ 1 < p)
    (h1 : powMod p 256 a (p - 1) 1 = 1) (h2 : ∀ q ∈ fs, powMod p 256 a ((p - 1) / q) 1 ≠ 1) : p.Prime := by
  obtain ⟨hp, hb, hp1⟩ := hp
  have key (e : Nat) (he : e ≤ p - 1) : powMod p 256 a e 1 = 1 ↔ (a : ZMod p) ^ e = 1 := by
    rw [powMod_spec _ _ _ _ _ (by omega), Nat.one_mul]
    have : ((a ^ e : Nat) : ZMod p) = ((1 : Nat) : ZMod p) ↔ a ^ e % p = 1 % p := ZMod.natCast_eq_natCast_iff' _ _ _
    rw [Nat.mod_eq_of_lt hp1] at this
    rw [← this]
    push_cast
    rfl
  apply lucas_primality p a ((key _ (le_refl _)).mp h1)
  intro q hq hd
  have hq2 : q ∣ fs.prod := by rwa [← hp, Nat.add_sub_cancel] at hd
  obtain ⟨r, hr, hqr⟩ := (Nat.Prime.prime hq).dvd_prod_iff.mp hq2
  have : q = r := (Nat.prime_dvd_prime_iff_eq hq (hfs r hr)).mp hqr
  subst this
  rw [ne_eq, ← key _ (Nat.div_le_self _ _)]
  exact h2 q hr

theorem prime_13331831 : Nat.Prime 13331831 := by
  refine lucas_list 13331831 13 [2, 5, 971, 1373] ?_ (by decide +kernel) (by decide +kernel) (by decide +kernel)
  simp only [List.mem_cons, List.not_mem_nil, or_false, forall_eq_or_imp, forall_eq]
  exact ⟨(by norm_num), (by norm_num), (by norm_num), (by norm_num)⟩

theorem prime_173378833005251801 : Nat.Prime 173378833005251801 := by
  refine lucas_list 173378833005251801 6 [2, 2, 2, 5, 5, 2621, 24809, 13331831] ?_ (by decide +kernel) (by decide +kernel) (by decide +kernel)
  simp only [List.mem_cons, List.not_mem_nil, or_false, forall_eq_or_imp, forall_eq]
  exact ⟨(by norm_num), (by norm_num), (by norm_num), (by norm_num), (by norm_num), (by norm_num), (by norm_num), prime_13331831⟩

theorem prime_22149492674086928081353 : Nat.Prime 22149492674086928081353 := by
  refine lucas_list 22149492674086928081353 5 [2, 2, 2, 3, 5323, 173378833005251801] ?_ (by decide +kernel) (by decide +kernel) (by decide +kernel)
  simp only [List.mem_cons, List.not_mem_nil, or_false, forall_eq_or_imp, forall_eq]
  exact ⟨(by norm_num), (by norm_num), (by norm_num), (by norm_num), (by norm_num), prime_173378833005251801⟩

theorem prime_132896956044521568488119 : Nat.Prime 132896956044521568488119 := by
  refine lucas_list 132896956044521568488119 6 [2, 3, 22149492674086928081353] ?_ (by decide +kernel) (by decide +kernel) (by decide +kernel)
  simp only [List.mem_cons, List.not_mem_nil, or_false, forall_eq_or_imp, forall_eq]
  exact ⟨(by norm_num), (by norm_num), prime_22149492674086928081353⟩

theorem prime_1206781 : Nat.Prime 1206781 := by
  refine lucas_list 1206781 10 [2, 2, 3, 5, 20113] ?_ (by decide +kernel) (by decide +kernel) (by decide +kernel)
  simp only [List.mem_cons, List.not_mem_nil, or_false, forall_eq_or_imp, forall_eq]
  exact ⟨(by norm_num), (by norm_num), (by norm_num), (by norm_num), (by norm_num)⟩

theorem prime_7240687 : Nat.Prime 7240687 := by
  refine lucas_list 7240687 3 [2, 3, 1206781] ?_ (by decide +kernel) (by decide +kernel) (by decide +kernel)
  simp only [List.mem_cons, List.not_mem_nil, or_false, forall_eq_or_imp, forall_eq]
  exact ⟨(by norm_num), (by norm_num), prime_1206781⟩

theorem prime_107590001 : Nat.Prime 107590001 := by
  refine lucas_list 107590001 3 [2, 2, 2, 2, 5, 5, 5, 5, 7, 29, 53] ?_ (by decide +kernel) (by decide +kernel) (by decide +kernel)
  simp only [List.mem_cons, List.not_mem_nil, or_false, forall_eq_or_imp, forall_eq]
  exact ⟨(by norm_num), (by norm_num), (by norm_num), (by norm_num), (by norm_num), (by norm_num), (by norm_num), (by norm_num), (by norm_num), (by norm_num), (by norm_num)⟩

theorem prime_255515944373312847190720520512484175977 : Nat.Prime 255515944373312847190720520512484175977 := by
  refine lucas_list 255515944373312847190720520512484175977 3 [2, 2, 2, 7, 7, 11, 1627, 2657, 4423, 41201, 96557, 7240687, 107590001] ?_ (by decide +kernel) (by decide +kernel) (by decide +kernel)
  simp only [List.mem_cons, List.not_mem_nil, or_false, forall_eq_or_imp, forall_eq]
  exact ⟨(by norm_num), (by norm_num), (by norm_num), (by norm_num), (by norm_num), (by norm_num), (by norm_num), (by norm_num), (by norm_num), (by norm_num), (by norm_num), prime_7240687, prime_107590001⟩

theorem prime_205115282021455665897114700593932402728804164701536103180137503955397371 : Nat.Prime 205115282021455665897114700593932402728804164701536103180137503955397371 := by
  refine lucas_list 205115282021455665897114700593932402728804164701536103180137503955397371 10 [2, 3, 5, 29, 29, 31, 7723, 132896956044521568488119, 255515944373312847190720520512484175977] ?_ (by decide +kernel) (by decide +kernel) (by decide +kernel)
  simp only [List.mem_cons, List.not_mem_nil, or_false, forall_eq_or_imp, forall_eq]
  exact ⟨(by norm_num), (by norm_num), (by norm_num), (by norm_num), (by norm_num), (by norm_num), (by norm_num), prime_132896956044521568488119, prime_255515944373312847190720520512484175977⟩

theorem prime_secpP : Nat.Prime secpP := by
  refine lucas_list secpP 3 [2, 3, 7, 13441, 205115282021455665897114700593932402728804164701536103180137503955397371] ?_ (by decide +kernel) (by decide +kernel) (by decide +kernel)
  simp only [List.mem_cons, List.not_mem_nil, or_false, forall_eq_or_imp, forall_eq]
  exact ⟨(by norm_num), (by norm_num), (by norm_num), (by norm_num), prime_205115282021455665897114700593932402728804164701536103180137503955397371⟩

theorem prime_4681609 : Nat.Prime 4681609 := by
  refine lucas_list 4681609 23 [2, 2, 2, 3, 97, 2011] ?_ (by decide +kernel) (by decide +kernel) (by decide +kernel)
  simp only [List.mem_cons, List.not_mem_nil, or_false, forall_eq_or_imp, forall_eq]
  exact ⟨(by norm_num), (by norm_num), (by norm_num), (by norm_num), (by norm_num), (by norm_num)⟩

theorem prime_107361793816595537 : Nat.Prime 107361793816595537 := by
  refine lucas_list 107361793816595537 3 [2, 2, 2, 2, 16699, 85831, 4681609] ?_ (by decide +kernel) (by decide +kernel) (by decide +kernel)
  simp only [List.mem_cons, List.not_mem_nil, or_false, forall_eq_or_imp, forall_eq]
  exact ⟨(by norm_num), (by norm_num), (by norm_num), (by norm_num), (by norm_num), (by norm_num), prime_4681609⟩

theorem prime_44706919 : Nat.Prime 44706919 := by
  refine lucas_list 44706919 6 [2, 3, 797, 9349] ?_ (by decide +kernel) (by decide +kernel) (by decide +kernel)
  simp only [List.mem_cons, List.not_mem_nil, or_false, forall_eq_or_imp, forall_eq]
  exact ⟨(by norm_num), (by norm_num), (by norm_num), (by norm_num)⟩

theorem prime_174723607534414371449 : Nat.Prime 174723607534414371449 := by
  refine lucas_list 174723607534414371449 3 [2, 2, 2, 17, 59, 4051, 120233, 44706919] ?_ (by decide +kernel) (by decide +kernel) (by decide +kernel)
  simp only [List.mem_cons, List.not_mem_nil, or_false, forall_eq_or_imp, forall_eq]
  exact ⟨(by norm_num), (by norm_num), (by norm_num), (by norm_num), (by norm_num), (by norm_num), (by norm_num), prime_44706919⟩

theorem prime_545358713 : Nat.Prime 545358713 := by
  refine lucas_list 545358713 5 [2, 2, 2, 41, 59, 28181] ?_ (by decide +kernel) (by decide +kernel) (by decide +kernel)
  simp only [List.mem_cons, List.not_mem_nil, or_false, forall_eq_or_imp, forall_eq]
  exact ⟨(by norm_num), (by norm_num), (by norm_num), (by norm_num), (by norm_num), (by norm_num)⟩

theorem prime_1627771 : Nat.Prime 1627771 := by
  refine lucas_list 1627771 3 [2, 3, 5, 29, 1871] ?_ (by decide +kernel) (by decide +kernel) (by decide +kernel)
  simp only [List.mem_cons, List.not_mem_nil, or_false, forall_eq_or_imp, forall_eq]
  exact ⟨(by norm_num), (by norm_num), (by norm_num), (by norm_num), (by norm_num)⟩

theorem prime_297159362677 : Nat.Prime 297159362677 := by
  refine lucas_list 297159362677 2 [2, 2, 3, 3, 11, 461, 1627771] ?_ (by decide +kernel) (by decide +kernel) (by decide +kernel)
  simp only [List.mem_cons, List.not_mem_nil, or_false, forall_eq_or_imp, forall_eq]
  exact ⟨(by norm_num), (by norm_num), (by norm_num), (by norm_num), (by norm_num), (by norm_num), prime_1627771⟩

theorem prime_29047611873442575647497758179 : Nat.Prime 29047611873442575647497758179 := by
  refine lucas_list 29047611873442575647497758179 2 [2, 293, 305873, 545358713, 297159362677] ?_ (by decide +kernel) (by decide +kernel) (by decide +kernel)
  simp only [List.mem_cons, List.not_mem_nil, or_false, forall_eq_or_imp, forall_eq]
  exact ⟨(by norm_num), (by norm_num), (by norm_num), prime_545358713, prime_297159362677⟩

theorem prime_341948486974166000522343609283189 : Nat.Prime 341948486974166000522343609283189 := by
  refine lucas_list 341948486974166000522343609283189 2 [2, 2, 3, 3, 3, 109, 29047611873442575647497758179] ?_ (by decide +kernel) (by decide +kernel) (by decide +kernel)
  simp only [List.mem_cons, List.not_mem_nil, or_false, forall_eq_or_imp, forall_eq]
  exact ⟨(by norm_num), (by norm_num), (by norm_num), (by norm_num), (by norm_num), (by norm_num), prime_29047611873442575647497758179⟩

theorem prime_secpN : Nat.Prime secpN := by
  refine lucas_list secpN 7 [2, 2, 2, 2, 2, 2, 3, 149, 631, 107361793816595537, 174723607534414371449, 341948486974166000522343609283189] ?_ (by decide +kernel) (by decide +kernel) (by decide +kernel)
  simp only [List.mem_cons, List.not_mem_nil, or_false, forall_eq_or_imp, forall_eq]
  exact ⟨(by norm_num), (by norm_num), (by norm_num), (by norm_num), (by norm_num), (by norm_num), (by norm_num), (by norm_num), (by norm_num), prime_107361793816595537, prime_174723607534414371449, prime_341948486974166000522343609283189⟩

end UB
