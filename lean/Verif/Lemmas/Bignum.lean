import Verif.Model.Bignum
import Verif.Spec.Bignum
import Verif.Spec.Conversion
import Mathlib.Tactic.Ring
import Mathlib.Tactic.SplitIfs
import Mathlib.Tactic.Linarith

namespace UB
open Spec
namespace BN

/-! ### Carry loops -/

theorem toNat_mask (t : UInt32) : (t &&& 0x3FFFFFFF).toNat = t.toNat % 2 ^ 30 := by
  rw [UInt32.toNat_and]
  exact Nat.and_two_pow_sub_one_eq_mod t.toNat 30

theorem toNat_shr (t : UInt32) (k : Nat) (h : k < 32) : (t >>> k.toUInt32).toNat = t.toNat / 2 ^ k := by
  rw [UInt32.toNat_shiftRight, Nat.shiftRight_eq_div_pow]
  congr 2
  simp
  omega

theorem toNat_shl (t : UInt32) (k : Nat) (h : k < 32) : (t <<< k.toUInt32).toNat = t.toNat * 2 ^ k % 2 ^ 32 := by
  rw [UInt32.toNat_shiftLeft, Nat.shiftLeft_eq]
  congr 3
  simp
  omega

theorem toNat_mask64 (t : UInt64) : (t &&& 0x3FFFFFFF).toUInt32.toNat = t.toNat % 2 ^ 30 := by
  rw [UInt64.toNat_toUInt32, UInt64.toNat_and]
  have : t.toNat &&& (0x3FFFFFFF : UInt64).toNat = t.toNat % 2 ^ 30 := Nat.and_two_pow_sub_one_eq_mod t.toNat 30
  rw [this]
  omega

theorem toNat_shr64 (t : UInt64) : (t >>> 30).toNat = t.toNat / 2 ^ 30 := by
  rw [UInt64.toNat_shiftRight, Nat.shiftRight_eq_div_pow]
  rfl

/-- Value of the addends of a carry loop. -/
def sumValue : List Nat → Nat
  | [] => 0
  | x :: xs => x + 2 ^ 30 * sumValue xs

theorem limbValue_lt (a : List UInt32) (h : ∀ x ∈ a, x.toNat < 2 ^ 30) : limbValue a < 2 ^ (30 * a.length) := by
  induction a with
  | nil => simp [limbValue]
  | cons x xs ih =>
    have h1 := ih fun y hy => h y (List.mem_cons_of_mem _ hy)
    have h2 := h x (by simp)
    simp only [limbValue, List.length_cons]
    rw [Nat.mul_add, Nat.pow_add]
    omega

theorem carry30_length (c : UInt32) (es : List UInt32) : (carry30 c es).length = es.length := by
  induction es generalizing c with
  | nil => rfl
  | cons e es ih => simp [carry30, ih]

theorem carry30_small (c : UInt32) (es : List UInt32) : ∀ x ∈ carry30 c es, x.toNat < 2 ^ 30 := by
  induction es generalizing c with
  | nil => simp [carry30]
  | cons e es ih =>
    intro x hx
    simp only [carry30, List.mem_cons] at hx
    rcases hx with rfl | hx
    · rw [toNat_mask]; omega
    · exact ih _ x hx

/-- The addition loop is exact (modulo what falls off the end) when no word overflows. -/
theorem carry30_value (c : UInt32) (es : List UInt32) (h : ∀ e ∈ es, e.toNat + 4 ≤ 2 ^ 32) (hc : c.toNat < 4 ∨ ∀ e ∈ es, c.toNat + e.toNat < 2 ^ 32) :
    limbValue (carry30 c es) = (c.toNat + limbValue es) % 2 ^ (30 * es.length) := by
  induction es generalizing c with
  | nil => simp [carry30, limbValue, Nat.mod_one]
  | cons e es ih =>
    have he := h e (by simp)
    have hce : c.toNat + e.toNat < 2 ^ 32 := by
      rcases hc with hc | hc
      · omega
      · exact hc e (by simp)
    have ht : (c + e).toNat = c.toNat + e.toNat := by
      rw [UInt32.toNat_add]; exact Nat.mod_eq_of_lt hce
    have hs : ((c + e) >>> 30).toNat = (c.toNat + e.toNat) / 2 ^ 30 := by
      rw [← ht]; exact toNat_shr (c + e) 30 (by omega)
    simp only [carry30, limbValue, List.length_cons]
    rw [ih _ (fun x hx => h x (List.mem_cons_of_mem _ hx)) (.inl (by rw [hs]; omega)), toNat_mask, ht, hs]
    rw [show 30 * (es.length + 1) = 30 + 30 * es.length by ring, Nat.pow_add, Nat.mod_mul]
    rw [show (c.toNat + (e.toNat + 2 ^ 30 * limbValue es)) = c.toNat + e.toNat + 2 ^ 30 * limbValue es by ring,
      Nat.add_mul_mod_self_left, Nat.add_mul_div_left _ _ (by norm_num)]

theorem carry30w_length (c : UInt64) (es : List UInt64) : (carry30w c es).length = es.length := by
  induction es generalizing c with
  | nil => rfl
  | cons e es ih => simp [carry30w, ih]

theorem carry30w_small (c : UInt64) (es : List UInt64) : ∀ x ∈ carry30w c es, x.toNat < 2 ^ 30 := by
  induction es generalizing c with
  | nil => simp [carry30w]
  | cons e es ih =>
    intro x hx
    simp only [carry30w, List.mem_cons] at hx
    rcases hx with rfl | hx
    · rw [toNat_mask64]; omega
    · exact ih _ x hx

theorem carry30w_value (c : UInt64) (es : List UInt64) (h : ∀ e ∈ es, e.toNat < 2 ^ 63) (hc : c.toNat < 2 ^ 34) :
    limbValue (carry30w c es) = (c.toNat + sumValue (es.map UInt64.toNat)) % 2 ^ (30 * es.length) := by
  induction es generalizing c with
  | nil => simp [carry30w, limbValue, Nat.mod_one]
  | cons e es ih =>
    have he := h e (by simp)
    have ht : (c + e).toNat = c.toNat + e.toNat := by
      rw [UInt64.toNat_add]; exact Nat.mod_eq_of_lt (by omega)
    have hs : ((c + e) >>> 30).toNat = (c.toNat + e.toNat) / 2 ^ 30 := by
      rw [← ht]; exact toNat_shr64 (c + e)
    simp only [carry30w, limbValue, List.length_cons, List.map_cons, sumValue]
    rw [ih _ (fun x hx => h x (List.mem_cons_of_mem _ hx)) (by rw [hs]; omega), toNat_mask64, ht, hs]
    rw [show 30 * (es.length + 1) = 30 + 30 * es.length by ring, Nat.pow_add, Nat.mod_mul]
    rw [show (c.toNat + (e.toNat + 2 ^ 30 * sumValue (es.map UInt64.toNat))) = c.toNat + e.toNat + 2 ^ 30 * sumValue (es.map UInt64.toNat) by ring,
      Nat.add_mul_mod_self_left, Nat.add_mul_div_left _ _ (by norm_num)]


/-! ### Addition and subtraction -/

theorem normal_carry30 (c : UInt32) (es : List UInt32) (h : es.length = 9) : Normal (carry30 c es) :=
  ⟨by rw [carry30_length, h], carry30_small c es⟩

theorem normal_carry30w (c : UInt64) (es : List UInt64) (h : es.length = 9) : Normal (carry30w c es) :=
  ⟨by rw [carry30w_length, h], carry30w_small c es⟩

theorem _root_.UB.Spec.Normal.lt {a : BN} (h : Normal a) : limbValue a < 2 ^ 270 := by
  have := limbValue_lt a h.small
  rwa [h.len] at this

theorem limbValue_zip_add (a b : List UInt32) (hl : a.length = b.length) (ha : ∀ x ∈ a, x.toNat < 2 ^ 31) (hb : ∀ x ∈ b, x.toNat < 2 ^ 31) :
    limbValue (List.zipWith (· + ·) a b) = limbValue a + limbValue b := by
  induction a generalizing b with
  | nil => cases b <;> simp_all [limbValue]
  | cons x xs ih =>
    cases b with
    | nil => simp at hl
    | cons y ys =>
      have h1 := ha x (by simp)
      have h2 := hb y (by simp)
      simp only [List.zipWith_cons_cons, limbValue]
      rw [ih ys (by simpa using hl) (fun z hz => ha z (List.mem_cons_of_mem _ hz)) (fun z hz => hb z (List.mem_cons_of_mem _ hz)),
        UInt32.toNat_add, Nat.mod_eq_of_lt (by omega)]
      ring

theorem _root_.UB.Spec.Normal.small31 {a : BN} (h : Normal a) : ∀ x ∈ a, x.toNat < 2 ^ 31 := fun x hx => by
  have := h.small x hx; omega

theorem _root_.UB.Spec.Normal.small3 {a : BN} (h : Normal a) : ∀ x ∈ a, x.toNat ≤ 3 * (2 ^ 30 - 1) := fun x hx => by
  have := h.small x hx; omega

theorem mem_zipWith {α β γ : Type} (f : α → β → γ) (a : List α) (b : List β) (z : γ) (h : z ∈ List.zipWith f a b) :
    ∃ x ∈ a, ∃ y ∈ b, z = f x y := by
  induction a generalizing b with
  | nil => simp at h
  | cons x xs ih =>
    cases b with
    | nil => simp at h
    | cons y ys =>
      simp only [List.zipWith_cons_cons, List.mem_cons] at h
      rcases h with rfl | h
      · exact ⟨x, by simp, y, by simp, rfl⟩
      · obtain ⟨x', hx, y', hy, e⟩ := ih ys h
        exact ⟨x', List.mem_cons_of_mem _ hx, y', List.mem_cons_of_mem _ hy, e⟩

theorem add_spec (a b : BN) (ha : Normal a) (hb : Normal b) :
    Normal (add a b) ∧ limbValue (add a b) = (limbValue a + limbValue b) % 2 ^ 270 := by
  have hlen : (List.zipWith (· + ·) a b).length = 9 := by simp [ha.len, hb.len]
  refine ⟨normal_carry30 _ _ hlen, ?_⟩
  unfold add
  rw [carry30_value, hlen, limbValue_zip_add a b (by rw [ha.len, hb.len]) ha.small31 hb.small31]
  · simp
  · intro e he
    obtain ⟨x, hx, y, hy, rfl⟩ := mem_zipWith _ _ _ _ he
    have := ha.small x hx
    have := hb.small y hy
    show (x + y).toNat + 4 ≤ _
    rw [UInt32.toNat_add]
    omega
  · left; decide

theorem addi_spec (a : BN) (b : UInt32) (ha : Normal a) (hb : b.toNat < 2 ^ 31) :
    Normal (addi a b) ∧ limbValue (addi a b) = (limbValue a + b.toNat) % 2 ^ 270 := by
  refine ⟨normal_carry30 _ _ ha.len, ?_⟩
  unfold addi
  rw [carry30_value, ha.len, Nat.add_comm]
  · intro e he
    have := ha.small e he
    omega
  · right
    intro e he
    have := ha.small e he
    omega

/-- Terms of a subtraction loop add up to the difference plus one power of two. -/
theorem sub_terms (a b : List UInt32) (hl : a.length = b.length) (ha : ∀ x ∈ a, x.toNat ≤ 3 * (2 ^ 30 - 1)) (hb : ∀ x ∈ b, x.toNat < 2 ^ 30) :
    limbValue (List.zipWith (fun a b => 0x3FFFFFFF + a - b) a b) + limbValue b + 1 = limbValue a + 2 ^ (30 * a.length) := by
  induction a generalizing b with
  | nil => cases b <;> simp_all [limbValue]
  | cons x xs ih =>
    cases b with
    | nil => simp at hl
    | cons y ys =>
      have h1 := ha x (by simp)
      have h2 := hb y (by simp)
      have e := ih ys (by simpa using hl) (fun z hz => ha z (List.mem_cons_of_mem _ hz)) (fun z hz => hb z (List.mem_cons_of_mem _ hz))
      have e0 : (0x3FFFFFFF + x - y).toNat = 0x3FFFFFFF + x.toNat - y.toNat := by
        have : (0x3FFFFFFF + x).toNat = 0x3FFFFFFF + x.toNat := by
          rw [UInt32.toNat_add, show (0x3FFFFFFF : UInt32).toNat = 0x3FFFFFFF from rfl, Nat.mod_eq_of_lt (by omega)]
        rw [UInt32.toNat_sub_of_le _ _ (by rw [UInt32.le_iff_toNat_le, this]; omega), this]
      simp only [List.zipWith_cons_cons, limbValue, List.length_cons]
      rw [e0, Nat.mul_add, Nat.pow_add]
      omega

theorem sub_term_small (x y : UInt32) (hx : x.toNat ≤ 3 * (2 ^ 30 - 1)) (hy : y.toNat < 2 ^ 30) : (0x3FFFFFFF + x - y).toNat + 4 ≤ 2 ^ 32 := by
  have : (0x3FFFFFFF + x).toNat = 0x3FFFFFFF + x.toNat := by
    rw [UInt32.toNat_add, show (0x3FFFFFFF : UInt32).toNat = 0x3FFFFFFF from rfl, Nat.mod_eq_of_lt (by omega)]
  rw [UInt32.toNat_sub_of_le _ _ (by rw [UInt32.le_iff_toNat_le, this]; omega), this]
  omega

theorem subtract_spec (a b : BN) (ha : Normal a) (hb : Normal b) :
    Normal (subtract a b) ∧ limbValue (subtract a b) = (limbValue a + 2 ^ 270 - limbValue b) % 2 ^ 270 := by
  have hlen : (List.zipWith (fun a b : UInt32 => 0x3FFFFFFF + a - b) a b).length = 9 := by simp [ha.len, hb.len]
  refine ⟨normal_carry30 _ _ hlen, ?_⟩
  unfold subtract
  have e := sub_terms a b (by rw [ha.len, hb.len]) ha.small3 hb.small
  rw [ha.len] at e
  rw [carry30_value, hlen, show (1 : UInt32).toNat = 1 from rfl]
  · congr 1
    have := hb.lt
    omega
  · intro z hz
    obtain ⟨x, hx, y, hy, rfl⟩ := mem_zipWith _ _ _ _ hz
    exact sub_term_small x y (ha.small3 x hx) (hb.small y hy)
  · left; decide

theorem subtract_le (a b : BN) (ha : Normal a) (hb : Normal b) (h : limbValue b ≤ limbValue a) :
    Normal (subtract a b) ∧ limbValue (subtract a b) = limbValue a - limbValue b := by
  obtain ⟨h1, h2⟩ := subtract_spec a b ha hb
  refine ⟨h1, ?_⟩
  have := ha.lt
  rw [h2]
  omega

theorem zip_terms (a p b : List UInt32) (h1 : a.length = p.length) (h2 : a.length = b.length) (ha : ∀ x ∈ a, x.toNat < 2 ^ 30)
    (hp : ∀ x ∈ p, x.toNat < 2 ^ 30) :
    List.zipWith (fun (ap : UInt32 × UInt32) b => 0x3FFFFFFF + ap.1 + 2 * ap.2 - b) (List.zip a p) b =
      List.zipWith (fun x b => 0x3FFFFFFF + x - b) (List.zipWith (fun a p => a + 2 * p) a p) b := by
  induction a generalizing p b with
  | nil => rfl
  | cons x xs ih =>
    cases p with
    | nil => simp at h1
    | cons y ys =>
      cases b with
      | nil => rfl
      | cons z zs =>
        simp only [List.zip_cons_cons, List.zipWith_cons_cons]
        rw [ih ys zs (by simpa using h1) (by simpa using h2) (fun w hw => ha w (List.mem_cons_of_mem _ hw)) (fun w hw => hp w (List.mem_cons_of_mem _ hw))]
        rw [UInt32.add_assoc]

theorem limbValue_zip_add2 (a p : List UInt32) (hl : a.length = p.length) (ha : ∀ x ∈ a, x.toNat < 2 ^ 30) (hb : ∀ x ∈ p, x.toNat < 2 ^ 30) :
    limbValue (List.zipWith (fun a p => a + 2 * p) a p) = limbValue a + 2 * limbValue p ∧
    ∀ x ∈ List.zipWith (fun a p : UInt32 => a + 2 * p) a p, x.toNat ≤ 3 * (2 ^ 30 - 1) := by
  induction a generalizing p with
  | nil => cases p <;> simp_all [limbValue]
  | cons x xs ih =>
    cases p with
    | nil => simp at hl
    | cons y ys =>
      have h1 := ha x (by simp)
      have h2 := hb y (by simp)
      obtain ⟨i1, i2⟩ := ih ys (by simpa using hl) (fun z hz => ha z (List.mem_cons_of_mem _ hz)) (fun z hz => hb z (List.mem_cons_of_mem _ hz))
      have e : (x + 2 * y).toNat = x.toNat + 2 * y.toNat := by
        rw [UInt32.toNat_add, UInt32.toNat_mul, show (2 : UInt32).toNat = 2 from rfl]; omega
      constructor
      · simp only [List.zipWith_cons_cons, limbValue]
        rw [i1, e]
        ring
      · intro z hz
        simp only [List.zipWith_cons_cons, List.mem_cons] at hz
        rcases hz with rfl | hz
        · rw [e]; omega
        · exact i2 z hz

/-- `a + (2 p - b)`. -/
theorem subtractmod_spec (a b p : BN) (ha : Normal a) (hb : Normal b) (hp : Normal p) :
    Normal (subtractmod a b p) ∧
      limbValue (subtractmod a b p) = (limbValue a + 2 * limbValue p + 2 ^ 270 - limbValue b) % 2 ^ 270 := by
  have hlen : (List.zipWith (fun (ap : UInt32 × UInt32) b => 0x3FFFFFFF + ap.1 + 2 * ap.2 - b) (List.zip a p) b).length = 9 := by
    simp [ha.len, hb.len, hp.len]
  refine ⟨normal_carry30 _ _ hlen, ?_⟩
  unfold subtractmod
  rw [zip_terms a p b (by rw [ha.len, hp.len]) (by rw [ha.len, hb.len]) ha.small hp.small] at hlen ⊢
  obtain ⟨s1, s2⟩ := limbValue_zip_add2 a p (by rw [ha.len, hp.len]) ha.small hp.small
  have hl : (List.zipWith (fun a p : UInt32 => a + 2 * p) a p).length = 9 := by simp [ha.len, hp.len]
  have e := sub_terms _ b (by rw [hl, hb.len]) s2 hb.small
  rw [hl, s1] at e
  rw [carry30_value, hlen, show (1 : UInt32).toNat = 1 from rfl]
  · congr 1
    have := hb.lt
    omega
  · intro z hz
    obtain ⟨x, hx, y, hy, rfl⟩ := mem_zipWith _ _ _ _ hz
    exact sub_term_small x y (s2 x hx) (hb.small y hy)
  · left; decide

/-- For a partly reduced `b` nothing falls off. -/
theorem subtractmod_le (a b p : BN) (ha : Normal a) (hb : Normal b) (hp : Normal p) (h : limbValue b ≤ 2 * limbValue p)
    (h' : limbValue a + 2 * limbValue p < 2 ^ 270) :
    Normal (subtractmod a b p) ∧ limbValue (subtractmod a b p) + limbValue b = limbValue a + 2 * limbValue p := by
  obtain ⟨h1, h2⟩ := subtractmod_spec a b p ha hb hp
  refine ⟨h1, ?_⟩
  rw [h2]
  omega

/-! ### Reduction -/

theorem red_term (x p coef : UInt32) (hp : p.toNat < 2 ^ 30) (hc : coef.toNat < 2 ^ 31) :
    (redNext x p coef).toNat + p.toNat * coef.toNat = 0x1FFFFFFF80000000 + x.toNat ∧ (redNext x p coef).toNat < 2 ^ 63 ∧
    (redFirst x p coef).toNat + p.toNat * coef.toNat = 0x2000000000000000 + x.toNat ∧ (redFirst x p coef).toNat < 2 ^ 63 := by
  have hx := x.toNat_lt
  have hm : p.toNat * coef.toNat ≤ (2 ^ 30 - 1) * (2 ^ 31 - 1) := Nat.mul_le_mul (by omega) (by omega)
  have hpc : (p.toUInt64 * coef.toUInt64).toNat = p.toNat * coef.toNat := by
    rw [UInt64.toNat_mul]
    simp only [UInt32.toNat_toUInt64]
    exact Nat.mod_eq_of_lt (by omega)
  have h1 : (0x1FFFFFFF80000000 + x.toUInt64).toNat = 0x1FFFFFFF80000000 + x.toNat := by
    rw [UInt64.toNat_add, UInt32.toNat_toUInt64, show (0x1FFFFFFF80000000 : UInt64).toNat = 0x1FFFFFFF80000000 from rfl, Nat.mod_eq_of_lt (by omega)]
  have h2 : (0x2000000000000000 + x.toUInt64).toNat = 0x2000000000000000 + x.toNat := by
    rw [UInt64.toNat_add, UInt32.toNat_toUInt64, show (0x2000000000000000 : UInt64).toNat = 0x2000000000000000 from rfl, Nat.mod_eq_of_lt (by omega)]
  have e1 : (redNext x p coef).toNat = 0x1FFFFFFF80000000 + x.toNat - p.toNat * coef.toNat := by
    unfold redNext
    rw [UInt64.toNat_sub_of_le _ _ (by rw [UInt64.le_iff_toNat_le, h1, hpc]; omega), h1, hpc]
  have e2 : (redFirst x p coef).toNat = 0x2000000000000000 + x.toNat - p.toNat * coef.toNat := by
    unfold redFirst
    rw [UInt64.toNat_sub_of_le _ _ (by rw [UInt64.le_iff_toNat_le, h2, hpc]; omega), h2, hpc]
  rw [e1, e2]
  omega

theorem redNext_sum (coef : UInt32) (hc : coef.toNat < 2 ^ 31) (x p : List UInt32) (hl : x.length = p.length) (hp : ∀ y ∈ p, y.toNat < 2 ^ 30) :
    sumValue ((List.zipWith (fun x p => redNext x p coef) x p).map UInt64.toNat) + limbValue p * coef.toNat + 2 ^ 31 =
      limbValue x + 2 ^ 31 * 2 ^ (30 * x.length) := by
  induction x generalizing p with
  | nil => cases p <;> simp_all [limbValue, sumValue]
  | cons x xs ih =>
    cases p with
    | nil => simp at hl
    | cons y ys =>
      have e := ih ys (by simpa using hl) (fun z hz => hp z (List.mem_cons_of_mem _ hz))
      obtain ⟨t, -, -⟩ := red_term x y coef (hp y (by simp)) hc
      simp only [List.zipWith_cons_cons, List.map_cons, sumValue, limbValue, List.length_cons]
      generalize sumValue _ = S at e ⊢
      rw [Nat.mul_add, Nat.pow_add, Nat.add_mul]
      have e' : 2 ^ 30 * limbValue ys * coef.toNat = 2 ^ 30 * (limbValue ys * coef.toNat) := by ring
      rw [e']
      omega

theorem redTerms_sum (coef : UInt32) (hc : coef.toNat < 2 ^ 31) (x p : List UInt32) (hl : x.length = p.length) (h0 : x ≠ [])
    (hp : ∀ y ∈ p, y.toNat < 2 ^ 30) :
    sumValue ((redTerms coef x p).map UInt64.toNat) + limbValue p * coef.toNat = limbValue x + 2 ^ 31 * 2 ^ (30 * x.length) := by
  cases x with
  | nil => exact absurd rfl h0
  | cons x xs =>
    cases p with
    | nil => simp at hl
    | cons y ys =>
      have e := redNext_sum coef hc xs ys (by simpa using hl) (fun z hz => hp z (List.mem_cons_of_mem _ hz))
      obtain ⟨-, -, t, -⟩ := red_term x y coef (hp y (by simp)) hc
      simp only [redTerms, List.map_cons, sumValue, limbValue, List.length_cons]
      generalize sumValue _ = S at e ⊢
      rw [Nat.mul_add, Nat.pow_add, Nat.add_mul]
      have e' : 2 ^ 30 * limbValue ys * coef.toNat = 2 ^ 30 * (limbValue ys * coef.toNat) := by ring
      rw [e']
      omega

theorem redTerms_small (coef : UInt32) (hc : coef.toNat < 2 ^ 31) (x p : List UInt32) (hp : ∀ y ∈ p, y.toNat < 2 ^ 30) :
    ∀ e ∈ redTerms coef x p, e.toNat < 2 ^ 63 := by
  cases x with
  | nil => simp [redTerms]
  | cons x xs =>
    cases p with
    | nil => simp [redTerms]
    | cons y ys =>
      intro e he
      simp only [redTerms, List.mem_cons] at he
      rcases he with rfl | he
      · exact (red_term x y coef (hp y (by simp)) hc).2.2.2
      · obtain ⟨a, -, b, hb, rfl⟩ := mem_zipWith _ _ _ _ he
        exact (red_term a b coef (hp b (List.mem_cons_of_mem _ hb)) hc).2.1

theorem redTerms_length (coef : UInt32) (x p : List UInt32) (hl : x.length = p.length) : (redTerms coef x p).length = x.length := by
  cases x with
  | nil => simp [redTerms]
  | cons x xs =>
    cases p with
    | nil => simp at hl
    | cons y ys =>
      simp at hl
      simp [redTerms, hl]

theorem limbValue_append (a b : List UInt32) : limbValue (a ++ b) = limbValue a + 2 ^ (30 * a.length) * limbValue b := by
  induction a with
  | nil => simp [limbValue]
  | cons x xs ih =>
    simp only [List.cons_append, limbValue, ih, List.length_cons]
    rw [Nat.mul_add 30, Nat.pow_add]
    ring

theorem limbValue_words (x : List UInt32) : limbValue x + 5 ≤ 5 * 2 ^ (30 * x.length) := by
  induction x with
  | nil => simp [limbValue]
  | cons a as ih =>
    have := a.toNat_lt
    simp only [limbValue, List.length_cons]
    rw [Nat.mul_add 30, Nat.pow_add]
    omega

/-- Every list of nine words: high word and the rest, the rest limited by the size of its words. -/
theorem limbValue_split (x : List UInt32) (h : x.length = 9) :
    ∃ low, limbValue x = low + 2 ^ 240 * (x.getD 8 0).toNat ∧ low < 2 ^ 243 := by
  have e : x = x.take 8 ++ [x.getD 8 0] := by
    have : x.drop 8 = [x.getD 8 0] := by
      rw [List.drop_eq_getElem_cons (by omega), List.drop_eq_nil_of_le (by omega)]
      simp [List.getD, List.getElem?_eq_getElem (show 8 < x.length by omega)]
    rw [← this, List.take_append_drop]
  have hl : (x.take 8).length = 8 := by simp [h]
  refine ⟨limbValue (x.take 8), ?_, ?_⟩
  · conv_lhs => rw [e]
    rw [limbValue_append, hl]
    simp [limbValue]
  · have := limbValue_words (x.take 8)
    rw [hl] at this
    omega

/-- `bn_fast_mod` on any nine words: a multiple of the modulus is subtracted and the result is below twice the modulus. -/
theorem fastMod_spec (x p : BN) (hx : x.length = 9) (hp : Modulus p) :
    Normal (fastMod x p) ∧ limbValue (fastMod x p) + (x.getD 8 0).toNat / 2 ^ 16 * limbValue p = limbValue x ∧
      limbValue (fastMod x p) < 2 * limbValue p := by
  have hl : x.length = p.length := by rw [hx, hp.normal.len]
  have hcv : (x.getD 8 0 >>> 16).toNat = (x.getD 8 0).toNat / 2 ^ 16 := toNat_shr (x.getD 8 0) 16 (by omega)
  have h8 := (x.getD 8 0).toNat_lt
  have hc : (x.getD 8 0 >>> 16).toNat < 2 ^ 31 := by rw [hcv]; omega
  have hlen : (redTerms (x.getD 8 0 >>> 16) x p).length = 9 := by rw [redTerms_length _ _ _ hl, hx]
  obtain ⟨low, e1, e2⟩ := limbValue_split x hx
  have hsum := redTerms_sum (x.getD 8 0 >>> 16) hc x p hl (by rintro rfl; simp at hx) hp.normal.small
  have hv := carry30w_value 0 (redTerms (x.getD 8 0 >>> 16) x p) (redTerms_small _ hc x p hp.normal.small) (by decide)
  rw [hlen, show (0 : UInt64).toNat = 0 from rfl, Nat.zero_add] at hv
  have n1 := hp.low
  have n2 := hp.high
  rw [hcv, hx] at hsum
  generalize hq : (x.getD 8 0).toNat / 2 ^ 16 = q at *
  have hq' : q < 2 ^ 16 := by omega
  have hm1 : limbValue p * q ≤ 2 ^ 256 * q := Nat.mul_le_mul_right _ (by omega)
  have hm2 : (2 ^ 256 - 2 ^ 224) * q ≤ limbValue p * q := Nat.mul_le_mul_right _ n1
  refine ⟨normal_carry30w _ _ hlen, ?_⟩
  unfold fastMod
  rw [hv, Nat.mul_comm q]
  generalize limbValue p * q = pq at *
  generalize sumValue _ = S at *
  omega

end BN
end UB
