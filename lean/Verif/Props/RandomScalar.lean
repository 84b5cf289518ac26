import Verif.Model.RandomScalar
import Verif.Lemmas.BignumMul
import Verif.Lemmas.Ecdsa

/-
C97: random numbers below the order or the prime.
-/

namespace UB
open Spec

/-! Specification -/

/-- The number that nine words stand for: 30 bits of each but the last, 16 of that. -/
def wordsNumber : List UInt32 → Nat
  | [] => 0
  | [w] => w.toNat % 2 ^ 16
  | w :: ws => w.toNat % 2 ^ 30 + 2 ^ 30 * wordsNumber ws

/-- The bits that are not used. -/
def wordsUnused : List UInt32 → List Nat
  | [] => []
  | [w] => [w.toNat / 2 ^ 16]
  | w :: ws => w.toNat / 2 ^ 30 :: wordsUnused ws

/-- The nine words drawn from call `k` on. -/
def nineWords (draws : Nat → UInt32) (k : Nat) : List UInt32 := (List.range 9).map fun i => draws (k + i)

namespace BN

theorem kLimbs_spec (draws : Nat → UInt32) (k : Nat) : Normal (kLimbs draws k) ∧ limbValue (kLimbs draws k) = wordsNumber (nineWords draws k) := by
  have h30 : ∀ w : UInt32, (w &&& 0x3FFFFFFF).toNat = w.toNat % 2 ^ 30 := by
    intro w; rw [UInt32.toNat_and]; exact Nat.and_two_pow_sub_one_eq_mod w.toNat 30
  have h16 : ∀ w : UInt32, (w &&& 0xFFFF).toNat = w.toNat % 2 ^ 16 := by
    intro w; rw [UInt32.toNat_and]; exact Nat.and_two_pow_sub_one_eq_mod w.toNat 16
  refine ⟨⟨by simp [kLimbs], ?_⟩, ?_⟩
  · intro x hx
    rcases List.mem_append.mp hx with hx | hx
    · obtain ⟨i, -, rfl⟩ := List.mem_map.mp hx
      rw [h30]; exact Nat.mod_lt _ (by norm_num)
    · rw [List.mem_singleton.mp hx, h16]
      exact Nat.lt_of_lt_of_le (Nat.mod_lt _ (by norm_num)) (by norm_num)
  · simp only [kLimbs, nineWords, List.range, List.range.loop, List.map_cons, List.map_nil, List.cons_append, List.nil_append, limbValue, wordsNumber, h30, h16, Nat.mul_zero, Nat.add_zero]

section
attribute [local irreducible] wordsNumber nineWords kLimbs

theorem generateK_step (draws : Nat → UInt32) (prime : BN) (hp : Normal prime) (fuel k : Nat) :
    generateK draws prime (fuel + 1) k =
      if 0 < wordsNumber (nineWords draws k) ∧ wordsNumber (nineWords draws k) < limbValue prime then some (kLimbs draws k, k + 9) else generateK draws prime fuel (k + 9) := by
  obtain ⟨hn, hv⟩ := kLimbs_spec draws k
  rw [generateK, ← hv]
  have h1 := isZero_iff (kLimbs draws k)
  have h2 := isLess_iff hn hp
  by_cases a : limbValue (kLimbs draws k) = 0
  · rw [h1.mpr a, Bool.true_or, if_pos rfl, if_neg (fun h => absurd a (Nat.ne_of_gt h.1))]
  · have a1 : isZero (kLimbs draws k) = false := by
      cases e : isZero (kLimbs draws k) with
      | false => rfl
      | true => exact absurd (h1.mp e) a
    by_cases b : limbValue (kLimbs draws k) < limbValue prime
    · rw [a1, h2.mpr b, Bool.not_true, Bool.false_or, if_neg (by decide), if_pos ⟨Nat.pos_of_ne_zero a, b⟩]
    · have b1 : isLess (kLimbs draws k) prime = false := by
        cases e : isLess (kLimbs draws k) prime with
        | false => rfl
        | true => exact absurd (h2.mp e) b
      rw [a1, b1, Bool.not_false, Bool.false_or, if_pos rfl, if_neg (fun h => b h.2)]

/-- `generate_k_random` returns the first attempt in the range from 1 to `prime - 1`, unchanged. -/
theorem C97_first (draws : Nat → UInt32) (prime : BN) (hp : Normal prime) : ∀ (fuel k k' : Nat) (x : BN),
    generateK draws prime fuel k = some (x, k') ↔
      ∃ g < fuel, k' = k + 9 * (g + 1) ∧ Normal x ∧ limbValue x = wordsNumber (nineWords draws (k + 9 * g)) ∧ 0 < limbValue x ∧ limbValue x < limbValue prime ∧
        ∀ j < g, ¬ (0 < wordsNumber (nineWords draws (k + 9 * j)) ∧ wordsNumber (nineWords draws (k + 9 * j)) < limbValue prime)
  | 0, k, k', x => ⟨(fun h => nomatch h), (fun ⟨g, h, _⟩ => absurd h (by omega))⟩
  | fuel + 1, k, k', x => by
    obtain ⟨hn, hv⟩ := kLimbs_spec draws k
    rw [generateK_step draws prime hp]
    by_cases h : 0 < wordsNumber (nineWords draws k) ∧ wordsNumber (nineWords draws k) < limbValue prime
    · rw [if_pos h]
      constructor
      · intro e
        simp only [Option.some.injEq, Prod.mk.injEq] at e
        obtain ⟨rfl, rfl⟩ := e
        exact ⟨0, by omega, rfl, hn, hv, by rw [hv]; exact h.1, by rw [hv]; exact h.2, fun j hj => absurd hj (by omega)⟩
      · rintro ⟨g, -, e1, e2, e3, -, -, e6⟩
        have hg : g = 0 := by
          by_contra hg
          exact e6 0 (by omega) h
        subst hg
        rw [e1, e2.inj hn (by rw [e3, hv, Nat.mul_zero, Nat.add_zero])]
    · rw [if_neg h, C97_first draws prime hp fuel (k + 9) k' x]
      constructor
      · rintro ⟨g, e0, e1, e2, e3, e4, e5, e6⟩
        refine ⟨g + 1, by omega, by omega, e2, by rw [e3]; exact congrArg (fun n => wordsNumber (nineWords draws n)) (by omega), e4, e5, fun j hj => ?_⟩
        cases j with
        | zero => exact h
        | succ j =>
          have := e6 j (by omega)
          rwa [show k + 9 + 9 * j = k + 9 * (j + 1) by omega] at this
      · rintro ⟨g, e0, e1, e2, e3, e4, e5, e6⟩
        cases g with
        | zero => rw [e3] at e4 e5; exact absurd ⟨e4, e5⟩ h
        | succ g =>
          refine ⟨g, by omega, by omega, e2, by rw [e3]; exact congrArg (fun n => wordsNumber (nineWords draws n)) (by omega), e4, e5, fun j hj => ?_⟩
          have := e6 (j + 1) (by omega)
          rwa [show k + 9 * (j + 1) = k + 9 + 9 * j by omega] at this

/-- It goes on as long as no attempt is in the range. -/
theorem C97_none (draws : Nat → UInt32) (prime : BN) (hp : Normal prime) : ∀ (fuel k : Nat),
    generateK draws prime fuel k = none ↔ ∀ j < fuel, ¬ (0 < wordsNumber (nineWords draws (k + 9 * j)) ∧ wordsNumber (nineWords draws (k + 9 * j)) < limbValue prime)
  | 0, k => by simp [generateK]
  | fuel + 1, k => by
    rw [generateK_step draws prime hp]
    by_cases h : 0 < wordsNumber (nineWords draws k) ∧ wordsNumber (nineWords draws k) < limbValue prime
    · rw [if_pos h]
      exact ⟨(fun e => nomatch e), (fun a => absurd h (a 0 (by omega)))⟩
    · rw [if_neg h, C97_none draws prime hp fuel (k + 9)]
      constructor
      · intro a j hj
        cases j with
        | zero => exact h
        | succ j =>
          have := a j (by omega)
          rwa [show k + 9 + 9 * j = k + 9 * (j + 1) by omega] at this
      · intro a j hj
        have := a (j + 1) (by omega)
        rwa [show k + 9 * (j + 1) = k + 9 + 9 * j by omega] at this

end

end BN

/-- Words are determined by the number and the unused bits … -/
theorem words_inj : ∀ (a b : List UInt32), a.length = b.length → wordsNumber a = wordsNumber b → wordsUnused a = wordsUnused b → a = b
  | [], [], _, _, _ => rfl
  | [], _ :: _, h, _, _ => by simp at h
  | _ :: _, [], h, _, _ => by simp at h
  | [a], [b], _, h1, h2 => by
    simp only [wordsNumber, wordsUnused, List.cons.injEq, and_true] at h1 h2
    congr 1
    apply UInt32.toNat_inj.mp
    omega
  | [_], _ :: _ :: _, h, _, _ => by simp at h
  | _ :: _ :: _, [_], h, _, _ => by simp at h
  | a :: a' :: as, b :: b' :: bs, h, h1, h2 => by
    simp only [wordsNumber, wordsUnused, List.cons.injEq] at h1 h2
    have ha : a.toNat % 2 ^ 30 = b.toNat % 2 ^ 30 := by
      have := Nat.mod_lt a.toNat (show 0 < 2 ^ 30 by norm_num)
      have := Nat.mod_lt b.toNat (show 0 < 2 ^ 30 by norm_num)
      omega
    have hr : wordsNumber (a' :: as) = wordsNumber (b' :: bs) := by omega
    have he : a = b := by apply UInt32.toNat_inj.mp; have := h2.1; omega
    rw [he, words_inj (a' :: as) (b' :: bs) (by simpa using h) hr h2.2]

theorem words_exist : ∀ (n v : Nat) (u : List Nat), v < 2 ^ (30 * n + 16) → u.length = n + 1 → (∀ x ∈ u.take n, x < 4) → (∀ x ∈ u.drop n, x < 2 ^ 16) →
    ∃ ws : List UInt32, ws.length = n + 1 ∧ wordsNumber ws = v ∧ wordsUnused ws = u
  | 0, v, u, hv, hl, _, hd => by
    obtain ⟨x, rfl⟩ := List.length_eq_one_iff.mp hl
    have hx : x < 2 ^ 16 := hd x (by simp)
    refine ⟨[UInt32.ofNat (v + 2 ^ 16 * x)], rfl, ?_, ?_⟩
    · simp only [wordsNumber, UInt32.toNat_ofNat']; omega
    · simp only [wordsUnused, UInt32.toNat_ofNat', List.cons.injEq, and_true]; omega
  | n + 1, v, u, hv, hl, ht, hd => by
    obtain ⟨x, u, rfl⟩ : ∃ x t, u = x :: t := by cases u with | nil => simp at hl | cons x t => exact ⟨x, t, rfl⟩
    have hx : x < 4 := ht x (by simp)
    obtain ⟨ws, e1, e2, e3⟩ := words_exist n (v / 2 ^ 30) u (by
      rw [Nat.div_lt_iff_lt_mul (by norm_num), ← Nat.pow_add]
      exact Nat.lt_of_lt_of_eq hv (by congr 1)) (by simpa using hl) (fun y hy => ht y (by simp [hy])) (fun y hy => hd y (by simpa using hy))
    have hm := Nat.mod_lt v (show 0 < 2 ^ 30 by norm_num)
    obtain ⟨w, ws, rfl⟩ : ∃ w t, ws = w :: t := by cases ws with | nil => simp at e1 | cons w t => exact ⟨w, t, rfl⟩
    refine ⟨UInt32.ofNat (v % 2 ^ 30 + 2 ^ 30 * x) :: w :: ws, by simpa using e1, ?_, ?_⟩
    · simp only [wordsNumber, UInt32.toNat_ofNat', e2]; omega
    · simp only [wordsUnused, UInt32.toNat_ofNat', e3, List.cons.injEq, and_true]; omega

/-- No number is preferred: for every number below 2^256 and all values of the unused bits (two of each word, 16 of the last) there are exactly one nine words. -/
theorem C97_equidistributed (v : Nat) (hv : v < 2 ^ 256) (u : List Nat) (hl : u.length = 9) (h8 : ∀ x ∈ u.take 8, x < 4) (h9 : ∀ x ∈ u.drop 8, x < 2 ^ 16) :
    ∃! ws : List UInt32, ws.length = 9 ∧ wordsNumber ws = v ∧ wordsUnused ws = u := by
  obtain ⟨ws, e1, e2, e3⟩ := words_exist 8 v u hv hl h8 h9
  exact ⟨ws, ⟨e1, e2, e3⟩, fun ws' h => words_inj _ _ (by rw [h.1, e1]) (by rw [h.2.1, e2]) (by rw [h.2.2, e3])⟩

theorem words_bounds : ∀ (n : Nat) (ws : List UInt32), ws.length = n + 1 → wordsNumber ws < 2 ^ (30 * n + 16) ∧ (wordsUnused ws).length = n + 1 ∧
    (∀ x ∈ (wordsUnused ws).take n, x < 4) ∧ (∀ x ∈ (wordsUnused ws).drop n, x < 2 ^ 16)
  | 0, ws, h => by
    obtain ⟨w, rfl⟩ := List.length_eq_one_iff.mp h
    have := w.toNat_lt
    refine ⟨Nat.mod_lt _ (by norm_num), rfl, by simp, ?_⟩
    intro x hx
    simp only [wordsUnused, List.drop_zero, List.mem_singleton] at hx
    omega
  | n + 1, ws, h => by
    obtain ⟨w, w', ws, rfl⟩ : ∃ w w' t, ws = w :: w' :: t := by
      rcases ws with _ | ⟨w, _ | ⟨w', t⟩⟩
      · simp at h
      · simp at h
      · exact ⟨w, w', t, rfl⟩
    obtain ⟨e1, e2, e3, e4⟩ := words_bounds n (w' :: ws) (by simpa using h)
    have hw := w.toNat_lt
    refine ⟨?_, by simpa [wordsUnused] using e2, ?_, ?_⟩
    · have hm := Nat.mod_lt w.toNat (show 0 < 2 ^ 30 by norm_num)
      have hs : 2 ^ (30 * (n + 1) + 16) = 2 ^ 30 * 2 ^ (30 * n + 16) := by rw [← Nat.pow_add]; congr 1; omega
      rw [hs, wordsNumber]
      · generalize wordsNumber (w' :: ws) = N at *
        generalize 2 ^ (30 * n + 16) = T at *
        omega
      · simp
    · intro x hx
      rw [wordsUnused, List.take_succ_cons] at hx
      · rcases List.mem_cons.mp hx with rfl | hx
        · omega
        · exact e3 x hx
      · simp
    · intro x hx
      rw [wordsUnused, List.drop_succ_cons] at hx
      · exact e4 x hx
      · simp

/-- All nine words are of this form, and their number is below 2^256. -/
theorem C97_equidistributed_all (ws : List UInt32) (h : ws.length = 9) : wordsNumber ws < 2 ^ 256 ∧ (wordsUnused ws).length = 9 ∧ (∀ x ∈ (wordsUnused ws).take 8, x < 4) ∧
    (∀ x ∈ (wordsUnused ws).drop 8, x < 2 ^ 16) := words_bounds 8 ws h

/-- What the blinding of the multiplications needs (C50 and all the theorems with `Blind`): a number drawn below the prime. -/
theorem C97_blind (draws : Nat → UInt32) (fuel k k' : Nat) (z : BN) (h : BN.generateK draws Secp.prime fuel k = some (z, k')) : Blind z := by
  obtain ⟨g, -, -, h1, -, h2, h3, -⟩ := (BN.C97_first draws _ modulus_prime.1 fuel k k' z).mp h
  exact ⟨h1, h2, by rw [← value_prime]; exact h3⟩

/-- As long as the generator of an STM32 is not ready, `random32` returns 0 and the loop goes round. -/
theorem C97_stm_not_ready (hw : Nat → Option UInt32) (prime : BN) (hp : Normal prime) (k fuel : Nat) (h0 : ∀ i < 9 * fuel, hw (k + i) = none) :
    BN.generateK (fun i => random32Stm32 (hw i)) prime fuel k = none := by
  rw [BN.C97_none _ _ hp]
  intro j hj h
  have : nineWords (fun i => random32Stm32 (hw i)) (k + 9 * j) = List.replicate 9 0 := by
    unfold nineWords
    apply List.ext_getElem
    · simp
    · intro i h1 h2
      simp only [List.length_map, List.length_range] at h1
      simp only [List.getElem_map, List.getElem_range, List.getElem_replicate]
      rw [show k + 9 * j + i = k + (9 * j + i) by omega, h0 (9 * j + i) (by omega)]
      rfl
  rw [this] at h
  exact absurd h.1 (by decide)

/-- The first nine words are zero, the next ones are above the prime, the third nine are taken. -/
example : BN.generateK (fun i => if i < 9 then 0 else if i < 18 then 0xffffffff else UInt32.ofNat (i * 0x10000001)) Secp.prime 3 0 =
    some ([0x20000012, 0x30000013, 0x00000014, 0x10000015, 0x20000016, 0x30000017, 0x00000018, 0x10000019, 0x001a], 27) := by decide +kernel
example : Normal Secp.prime ∧ Normal Secp.order := ⟨modulus_prime.normal, by constructor <;> decide +kernel⟩
example : BN.generateK (fun i => if i < 9 then 0 else 0xffffffff) Secp.prime 50 0 = none := by decide +kernel
example : BN.generateK (fun i => random32Stm32 ((fun i => if i < 18 then none else some 5) i)) Secp.prime 2 0 = none :=
  C97_stm_not_ready _ _ modulus_prime.normal _ _ (fun i hi => if_pos (by omega))
example : ∃ ws : List UInt32, ws.length = 9 ∧ wordsNumber ws = 2 ^ 255 + 12345 ∧ wordsUnused ws = [1, 2, 3, 0, 1, 2, 3, 0, 65535] :=
  words_exist 8 _ _ (by norm_num) rfl (by decide) (by decide)

end UB
