import Verif.Model.CurveMul
import Verif.Lemmas.CurveOrder

/-
`point_multiply` and `scalar_multiply` compute multiples of points.
-/

namespace UB
open Spec BN

attribute [local irreducible] secpP secpN JacobianPoint.double JacobianPoint.add CurvePoint.double CurvePoint.add CurvePoint.toJacobian
  JacobianPoint.toCurve conditionalNegate

/-! ### The digits -/

/-- The odd digit read off five bits. -/
def dig (w : Nat) : Int := 2 * (w / 2 : Nat) + 1 - 16

theorem digitBits_fin : ∀ w : Fin 32,
    (digitBits (UInt32.ofNat w.val)).1 = (if 16 ≤ w.val then 0 else 0xffffffff) ∧
    ((digitBits (UInt32.ofNat w.val)).2 >>> 1).toNat < 8 ∧
    ((2 * ((digitBits (UInt32.ofNat w.val)).2 >>> 1).toNat + 1 : Nat) : Int) = (if 16 ≤ w.val then dig w.val else -dig w.val) ∧
    ((digitBits (UInt32.ofNat w.val)).2 &&& 1) - 1 = (if (16 ≤ w.val) = (w.val % 2 = 1) then 0 else 0xffffffff) := by decide +kernel

theorem digitBits_spec (b : UInt32) (h : b.toNat < 32) :
    (digitBits b).1 = (if 16 ≤ b.toNat then 0 else 0xffffffff) ∧
    ((digitBits b).2 >>> 1).toNat < 8 ∧
    ((2 * ((digitBits b).2 >>> 1).toNat + 1 : Nat) : Int) = (if 16 ≤ b.toNat then dig b.toNat else -dig b.toNat) ∧
    ((digitBits b).2 &&& 1) - 1 = (if (16 ≤ b.toNat) = (b.toNat % 2 = 1) then 0 else 0xffffffff) := by
  have := digitBits_fin ⟨b.toNat, h⟩
  simpa using this

/-- The multiple accumulated from the top: Σ_{j ≥ i} d_j 16^(j-i). -/
def topSum (A i : Nat) : Int := 2 * (A / 16 ^ i / 2 : Nat) + 1 - 16 ^ (64 - i)

/-- The multiple accumulated from the bottom: Σ_{j ≤ i} d_j 16^j. -/
def lowSum (A i : Nat) : Int := A - 16 ^ (i + 1) * (2 * (A / 16 ^ (i + 1) / 2 : Nat) + 1)

theorem dig_step (A i : Nat) : (2 * (A / 16 ^ i / 2 : Nat) + 1 : Int) = 16 * (2 * (A / 16 ^ (i + 1) / 2 : Nat) + 1) + dig (A / 16 ^ i % 32) := by
  unfold dig
  rw [Nat.pow_succ, ← Nat.div_div_eq_div_mul]
  generalize A / 16 ^ i = B
  omega

theorem topSum_step (A i : Nat) (h : i < 63) : topSum A i = 16 * topSum A (i + 1) + dig (A / 16 ^ i % 32) := by
  have h1 := dig_step A i
  unfold topSum
  rw [show 64 - i = (64 - (i + 1)) + 1 by omega, pow_succ]
  linarith

theorem topSum_top (A : Nat) (h : A < 2 ^ 257) : topSum A 63 = dig (A / 16 ^ 63) := by
  unfold topSum dig
  norm_num

theorem lowSum_step (A i : Nat) : lowSum A (i + 1) = lowSum A i + dig (A / 16 ^ (i + 1) % 32) * 16 ^ (i + 1) := by
  have h1 := dig_step A (i + 1)
  unfold lowSum
  rw [h1, pow_succ 16 (i + 1)]
  ring

theorem lowSum_zero (A : Nat) (h : A % 2 = 1) : lowSum A 0 = dig (A % 32) := by
  unfold lowSum dig
  norm_num
  omega

theorem pow_even (k : Nat) (h : 0 < k) : ∃ c : Int, (16 : Int) ^ k = 2 * c := by
  obtain ⟨m, rfl⟩ : ∃ m, k = m + 1 := ⟨k - 1, by omega⟩
  exact ⟨8 * 16 ^ m, by rw [pow_succ]; ring⟩

theorem topSum_ne (A i : Nat) (hA : A < 2 ^ 257) (h1 : 1 ≤ i) (h2 : i ≤ 63) : ¬ (secpN : Int) ∣ topSum A i := by
  obtain ⟨c, hc⟩ := pow_even (64 - i) (by omega)
  have hb : A / 16 ^ i < 2 * 16 ^ (64 - i) := by
    rw [Nat.div_lt_iff_lt_mul (by positivity)]
    calc A < 2 ^ 257 := hA
      _ = 2 * 16 ^ 64 := by rw [show (16 : Nat) = 2 ^ 4 by norm_num, ← Nat.pow_mul, ← Nat.pow_succ']
      _ = 2 * 16 ^ (64 - i) * 16 ^ i := by rw [Nat.mul_assoc, ← Nat.pow_add]; congr 2; omega
  have hp : (16 : Nat) ^ (64 - i) ≤ 16 ^ 63 := Nat.pow_le_pow_right (by norm_num) (by omega)
  have hpi : ((16 ^ (64 - i) : Nat) : Int) = 16 ^ (64 - i) := by push_cast; rfl
  have hn : 16 ^ 63 < secpN := by decide +kernel
  have hne : topSum A i ≠ 0 := by unfold topSum; rw [hc]; omega
  intro hd
  have := Int.le_of_dvd (abs_pos.mpr hne) ((dvd_abs _ _).mpr hd)
  have hlt : |topSum A i| < (16 ^ 63 : Nat) := by
    rw [abs_lt]
    unfold topSum
    rw [← hpi]
    generalize A / 16 ^ i = B at hb
    generalize 16 ^ (64 - i) = E at hb hp
    constructor <;> omega
  omega

theorem lowSum_ne (A i : Nat) (hA : A % 2 = 1) (h2 : i ≤ 62) : ¬ (secpN : Int) ∣ lowSum A i := by
  obtain ⟨c, hc⟩ := pow_even (i + 1) (by omega)
  have hp : (16 : Nat) ^ (i + 1) ≤ 16 ^ 63 := Nat.pow_le_pow_right (by norm_num) (by omega)
  have hn : 16 ^ 63 < secpN := by decide +kernel
  have hne : lowSum A i ≠ 0 := by
    unfold lowSum
    rw [hc, mul_assoc]
    generalize c * _ = e
    omega
  have hdm := Nat.div_add_mod A (16 ^ (i + 1))
  have hml : A % 16 ^ (i + 1) < 16 ^ (i + 1) := Nat.mod_lt _ (by positivity)
  have hlt : |lowSum A i| ≤ (16 ^ 63 : Nat) := by
    have e : lowSum A i = ((A % 16 ^ (i + 1) : Nat) : Int) + (16 ^ (i + 1) : Nat) * ((A / 16 ^ (i + 1) % 2 : Nat) - 1 : Int) := by
      have h3 : ((16 ^ (i + 1) : Nat) : Int) * ((A / 16 ^ (i + 1) : Nat) : Int) + ((A % 16 ^ (i + 1) : Nat) : Int) = (A : Int) := by exact_mod_cast hdm
      have h4 : ((A / 16 ^ (i + 1) : Nat) : Int) = 2 * ((A / 16 ^ (i + 1) / 2 : Nat) : Int) + ((A / 16 ^ (i + 1) % 2 : Nat) : Int) := by omega
      unfold lowSum
      rw [← h3, h4]
      push_cast
      ring
    rw [e, abs_le]
    rcases Nat.mod_two_eq_zero_or_one (A / 16 ^ (i + 1)) with h | h
    · rw [h]
      constructor <;> push_cast <;> norm_num <;> norm_cast <;> omega
    · rw [h]
      constructor <;> push_cast <;> norm_num <;> norm_cast <;> omega
  intro hd
  have := Int.le_of_dvd (abs_pos.mpr hne) ((dvd_abs _ _).mpr hd)
  omega

/-! ### Recoding the scalar -/

theorem mask_le (o e : UInt32) : (o &&& e).toNat ≤ o.toNat := by rw [UInt32.toNat_and]; exact Nat.and_le_left

theorem recodeLoop_spec (e : UInt32) : ∀ (ps : List (UInt32 × UInt32)) (tmp : UInt32), ps ≠ [] →
    (∀ p ∈ ps, p.1.toNat < 2 ^ 30 ∧ p.2.toNat < 2 ^ 30) → (∀ p, ps.getLast? = some p → p.1.toNat < 2 ^ 16 ∧ p.2.toNat < 2 ^ 16) →
    tmp.toNat ≤ 3 →
    (limbValue (recodeLoop e tmp ps) : Int) = tmp.toNat - 1 + limbValue (ps.map Prod.fst) - limbValue (ps.map fun p => p.2 &&& e) +
        2 ^ (30 * (ps.length - 1) + 16) ∧
      (∀ x ∈ recodeLoop e tmp ps, x.toNat < 2 ^ 30) ∧ (recodeLoop e tmp ps).length = ps.length := by
  intro ps
  induction ps with
  | nil => intro _ h; exact absurd rfl h
  | cons p ps ih =>
    intro tmp _ hs hl ht
    obtain ⟨k, o⟩ := p
    have hko := hs (k, o) (by simp)
    simp only at hko
    have hm := mask_le o e
    cases ps with
    | nil =>
      have hla := hl (k, o) rfl
      simp only at hla
      have hv : (tmp + 0xffff + k - (o &&& e)).toNat = tmp.toNat + 0xffff + k.toNat - (o &&& e).toNat := by
        have e1 : (tmp + 0xffff + k).toNat = tmp.toNat + 0xffff + k.toNat := by
          rw [UInt32.toNat_add, UInt32.toNat_add, show (0xffff : UInt32).toNat = 0xffff from rfl]
          omega
        rw [UInt32.toNat_sub_of_le _ _ (by rw [UInt32.le_iff_toNat_le, e1]; omega), e1]
      refine ⟨?_, ?_, rfl⟩
      · have e1 : limbValue (recodeLoop e tmp [(k, o)]) = (tmp + 0xffff + k - (o &&& e)).toNat := rfl
        have e2 : limbValue ([(k, o)].map Prod.fst) = k.toNat := rfl
        have e3 : limbValue ([(k, o)].map fun p => p.2 &&& e) = (o &&& e).toNat := rfl
        have e4 : (2 : Int) ^ (30 * ([(k, o)].length - 1) + 16) = 65536 := by norm_num
        rw [e1, e2, e3, e4, hv]
        omega
      · intro x hx
        simp only [recodeLoop, List.mem_singleton] at hx
        subst hx
        rw [hv]
        omega
    | cons q ps =>
      have htv : (tmp + (0x3fffffff + k - (o &&& e))).toNat = tmp.toNat + 0x3fffffff + k.toNat - (o &&& e).toNat := by
        have e1 : (0x3fffffff + k).toNat = 0x3fffffff + k.toNat := by
          rw [UInt32.toNat_add, show (0x3fffffff : UInt32).toNat = 0x3fffffff from rfl]
          omega
        have e2 : (0x3fffffff + k - (o &&& e)).toNat = 0x3fffffff + k.toNat - (o &&& e).toNat := by
          rw [UInt32.toNat_sub_of_le _ _ (by rw [UInt32.le_iff_toNat_le, e1]; omega), e1]
        rw [UInt32.toNat_add, e2]
        omega
      have hsh : ((tmp + (0x3fffffff + k - (o &&& e))) >>> 30).toNat = (tmp.toNat + 0x3fffffff + k.toNat - (o &&& e).toNat) / 2 ^ 30 := by
        have := toNat_shr (tmp + (0x3fffffff + k - (o &&& e))) 30 (by norm_num)
        rw [htv] at this
        exact this
      obtain ⟨i1, i2, i3⟩ := ih ((tmp + (0x3fffffff + k - (o &&& e))) >>> 30) (by simp) (fun p hp => hs p (List.mem_cons_of_mem _ hp))
        (fun p hp => hl p (by rw [List.getLast?_cons_cons]; exact hp)) (by rw [hsh]; omega)
      refine ⟨?_, ?_, ?_⟩
      · rw [recodeLoop, limbValue]
        · push_cast
          rw [i1, toNat_mask, htv, hsh]
          have e2 : limbValue (((k, o) :: q :: ps).map Prod.fst) = k.toNat + 2 ^ 30 * limbValue ((q :: ps).map Prod.fst) := rfl
          have e3 : limbValue (((k, o) :: q :: ps).map fun p => p.2 &&& e) = (o &&& e).toNat + 2 ^ 30 * limbValue ((q :: ps).map fun p => p.2 &&& e) := rfl
          have e4 : (2 : Int) ^ (30 * (((k, o) :: q :: ps).length - 1) + 16) = 2 ^ 30 * 2 ^ (30 * ((q :: ps).length - 1) + 16) := by
            rw [← pow_add]
            congr 1
            simp only [List.length_cons]
            omega
          rw [e2, e3, e4]
          generalize limbValue ((q :: ps).map Prod.fst) = X
          generalize limbValue ((q :: ps).map fun p => p.2 &&& e) = Y
          generalize (2 : Int) ^ (30 * ((q :: ps).length - 1) + 16) = Z
          generalize (o &&& e).toNat = M at *
          push_cast
          omega
        · intro h; cases h
      · intro x hx
        rw [recodeLoop] at hx
        · rcases List.mem_cons.mp hx with rfl | hx
          · rw [toNat_mask]
            exact Nat.mod_lt _ (by norm_num)
          · exact i2 x hx
        · intro h; cases h
      · rw [recodeLoop]
        · simp only [List.length_cons, i3]
        · intro h; cases h

theorem order_top : (Secp.order.getD 8 0).toNat < 2 ^ 16 := by decide +kernel
theorem order_and_zero : limbValue (Secp.order.map (· &&& 0)) = 0 := by decide +kernel
theorem order_and_ones : limbValue (Secp.order.map (· &&& 0xffffffff)) = secpN := by decide +kernel

theorem recode_spec (k : BN) (hk : Normal k) (hl : limbValue k < secpN) :
    Normal (recode k Secp.order) ∧
      (limbValue (recode k Secp.order) : Int) = limbValue k + 2 ^ 256 - (if limbValue k % 2 = 1 then 0 else secpN) := by
  have hle := hk.len
  have hlo : Secp.order.length = 9 := rfl
  have hz1 : (List.zip k Secp.order).map Prod.fst = k := List.map_fst_zip (by omega)
  have hz2 : (List.zip k Secp.order).map Prod.snd = Secp.order := List.map_snd_zip (by omega)
  have hzl : (List.zip k Secp.order).length = 9 := by rw [List.length_zip]; omega
  have h256 : limbValue k < 2 ^ 256 := lt_trans hl (by decide +kernel)
  have htop : (k.getD 8 0).toNat < 2 ^ 16 := top_limb_lt hk (by rw [← Nat.pow_add]; exact h256)
  set e := (k.headD 0 &&& 1) - 1 with he
  have hev : e = if limbValue k % 2 = 1 then 0 else 0xffffffff := by
    have hi := isOdd_iff k
    rw [isOdd, beq_iff_eq] at hi
    split
    · rename_i h
      rw [he, hi.mpr h]
      rfl
    · rename_i h
      have h1 : k.headD 0 &&& 1 = 0 := by
        have h2 : ¬ (k.headD 0 &&& 1 = 1) := fun hc => h (hi.mp hc)
        have h3 : (k.headD 0 &&& 1).toNat = (k.headD 0).toNat % 2 := by
          rw [UInt32.toNat_and]; exact Nat.and_two_pow_sub_one_eq_mod _ 1
        rw [← UInt32.toNat_inj] at h2 ⊢
        rw [h3] at h2 ⊢
        have e1 : (1 : UInt32).toNat = 1 := rfl
        have e0 : (0 : UInt32).toNat = 0 := rfl
        rw [e1] at h2
        rw [e0]
        omega
      rw [he, h1]
      rfl
  obtain ⟨h1, h2, h3⟩ := recodeLoop_spec e (List.zip k Secp.order) 1 (by intro hc; rw [hc] at hzl; cases hzl)
    (fun p hp => ⟨hk.small _ (List.of_mem_zip hp).1, modulus_order.normal.small _ (List.of_mem_zip hp).2⟩)
    (fun p hp => by
      have h8 : (List.zip k Secp.order).getLast? = some (k.getD 8 0, Secp.order.getD 8 0) := by
        rw [List.getLast?_eq_getElem?, hzl, List.getElem?_zip_eq_some.mpr]
        exact ⟨by rw [List.getD_eq_getElem?_getD, List.getElem?_eq_getElem (by omega), Option.getD_some], rfl⟩
      rw [h8, Option.some.injEq] at hp
      rw [← hp]
      exact ⟨htop, order_top⟩) (by decide)
  have hs2 : (limbValue ((List.zip k Secp.order).map fun p => p.2 &&& e) : Int) = if limbValue k % 2 = 1 then 0 else secpN := by
    have : ((List.zip k Secp.order).map fun p => p.2 &&& e) = Secp.order.map (· &&& e) := by
      conv_rhs => rw [← hz2, List.map_map]
      rfl
    rw [this]
    by_cases h : limbValue k % 2 = 1
    · rw [if_pos h, (by rw [hev, if_pos h] : e = 0), order_and_zero]
    · rw [if_neg h, (by rw [hev, if_neg h] : e = 0xffffffff), order_and_ones]
  rw [hz1, hs2, hzl] at h1
  refine ⟨⟨by unfold recode; rw [← he, h3, hzl], h2⟩, ?_⟩
  unfold recode
  rw [← he, h1]
  have : ((1 : UInt32).toNat : Int) = 1 := rfl
  rw [this]
  norm_num
  ring

/-- What the recoded scalar stands for. -/
theorem recode_facts (k : BN) (hk : Normal k) (hl : limbValue k < secpN) :
    Normal (recode k Secp.order) ∧ limbValue (recode k Secp.order) % 2 = 1 ∧ limbValue (recode k Secp.order) < 2 ^ 257 ∧
      (secpN : Int) ∣ (limbValue (recode k Secp.order) : Int) - 2 ^ 256 - limbValue k := by
  obtain ⟨h1, h2⟩ := recode_spec k hk hl
  have hn : secpN < 2 ^ 256 := by decide +kernel
  have hn2 : secpN % 2 = 1 := by decide +kernel
  refine ⟨h1, ?_, ?_, ?_⟩
  · split at h2 <;> omega
  · split at h2 <;> omega
  · rw [h2]
    split
    · exact ⟨0, by ring⟩
    · exact ⟨-1, by ring⟩

/-! ### Reading the windows -/

theorem limbValue_div (a : List UInt32) (h : ∀ x ∈ a, x.toNat < 2 ^ 30) (i : Nat) : limbValue a / 2 ^ (30 * i) = limbValue (a.drop i) := by
  induction i generalizing a with
  | zero => simp
  | succ i ih =>
    cases a with
    | nil => simp [limbValue]
    | cons x xs =>
      have hx := h x (by simp)
      rw [List.drop_succ_cons, ← ih xs (fun y hy => h y (List.mem_cons_of_mem _ hy)), limbValue,
        show 30 * (i + 1) = 30 + 30 * i by ring, Nat.pow_add, ← Nat.div_div_eq_div_mul]
      congr 1
      omega

theorem limbValue_drop (a : List UInt32) (i : Nat) (h : i < a.length) :
    limbValue (a.drop i) = (a.getD i 0).toNat + 2 ^ 30 * limbValue (a.drop (i + 1)) := by
  rw [List.drop_eq_getElem_cons h, limbValue, List.getD_eq_getElem?_getD, List.getElem?_eq_getElem h, Option.getD_some]

theorem window_same (a : BN) (ha : Normal a) (i s : Nat) (hi : i < 9) (hs : s ≤ 25) :
    ((a.getD i 0 >>> s.toUInt32) &&& 31).toNat = limbValue a / 2 ^ (30 * i + s) % 32 := by
  rw [UInt32.toNat_and, toNat_shr _ _ (by omega), Nat.pow_add, ← Nat.div_div_eq_div_mul, limbValue_div a ha.small, limbValue_drop a i (by rw [ha.len]; exact hi)]
  have e31 : ∀ x : Nat, x &&& (31 : UInt32).toNat = x % 32 := fun x => Nat.and_two_pow_sub_one_eq_mod x 5
  rw [e31]
  generalize (a.getD i 0).toNat = x
  generalize limbValue (List.drop (i + 1) a) = y
  have e2 : 2 ^ 30 * y = 2 ^ s * (32 * (2 ^ (25 - s) * y)) := by
    rw [show 2 ^ 30 = 2 ^ s * (2 ^ 5 * 2 ^ (25 - s)) by rw [← Nat.pow_add, ← Nat.pow_add]; congr 1; omega]
    ring
  rw [e2, Nat.add_mul_div_left _ _ (by positivity), Nat.add_mul_mod_self_left]

theorem window_cross (a : BN) (ha : Normal a) (i c : Nat) (hi : i + 1 < 9) (hc : 1 ≤ c) (hc4 : c ≤ 4) :
    (((a.getD (i + 1) 0 <<< c.toUInt32) ||| (a.getD i 0 >>> (30 - c).toUInt32)) &&& 31).toNat = limbValue a / 2 ^ (30 * i + (30 - c)) % 32 := by
  have hx : (a.getD i 0).toNat < 2 ^ 30 := by
    rw [List.getD_eq_getElem?_getD, List.getElem?_eq_getElem (by rw [ha.len]; omega), Option.getD_some]
    exact ha.small _ (List.getElem_mem _)
  rw [UInt32.toNat_and, UInt32.toNat_or, toNat_shr _ _ (by omega), toNat_shl _ _ (by omega), Nat.pow_add, ← Nat.div_div_eq_div_mul,
    limbValue_div a ha.small, limbValue_drop a i (by rw [ha.len]; omega), limbValue_drop a (i + 1) (by rw [ha.len]; omega)]
  have e31 : ∀ x : Nat, x &&& (31 : UInt32).toNat = x % 32 := fun x => Nat.and_two_pow_sub_one_eq_mod x 5
  rw [e31]
  generalize (a.getD i 0).toNat = x at hx
  generalize (a.getD (i + 1) 0).toNat = x'
  generalize limbValue (List.drop (i + 1 + 1) a) = y
  have hxd : x / 2 ^ (30 - c) < 2 ^ c := by
    rw [Nat.div_lt_iff_lt_mul (by positivity), ← Nat.pow_add, show c + (30 - c) = 30 by omega]
    exact hx
  have e2 : x + 2 ^ 30 * (x' + 2 ^ 30 * y) = x + 2 ^ (30 - c) * (2 ^ c * x' + 32 * (2 ^ (25 + c) * y)) := by
    have h1 : (2 : Nat) ^ 30 = 2 ^ (30 - c) * 2 ^ c := by rw [← Nat.pow_add]; congr 1; omega
    have h2 : (2 : Nat) ^ c * 2 ^ 30 = 32 * 2 ^ (25 + c) := by rw [show 32 = 2 ^ 5 by norm_num, ← Nat.pow_add, ← Nat.pow_add]; congr 1; omega
    calc x + 2 ^ 30 * (x' + 2 ^ 30 * y) = x + (2 ^ (30 - c) * 2 ^ c) * (x' + 2 ^ 30 * y) := by rw [← h1]
      _ = x + 2 ^ (30 - c) * (2 ^ c * x' + (2 ^ c * 2 ^ 30) * y) := by ring
      _ = _ := by rw [h2]; ring
  rw [e2, Nat.add_mul_div_left _ _ (by positivity)]
  rw [show x' * 2 ^ c % 2 ^ 32 = 2 ^ c * (x' % 2 ^ (32 - c)) by
    rw [Nat.mul_comm, show (2 : Nat) ^ 32 = 2 ^ c * 2 ^ (32 - c) by rw [← Nat.pow_add]; congr 1; omega, Nat.mul_mod_mul_left]]
  rw [← Nat.two_pow_add_eq_or_of_lt hxd]
  have e3 : x' = 2 ^ (32 - c) * (x' / 2 ^ (32 - c)) + x' % 2 ^ (32 - c) := (Nat.div_add_mod _ _).symm
  have e4 : (2 : Nat) ^ c * 2 ^ (32 - c) = 32 * 2 ^ 27 := by rw [← Nat.pow_add, show c + (32 - c) = 32 by omega]; norm_num
  conv_rhs => rw [e3]
  have e5 : x / 2 ^ (30 - c) + (2 ^ c * (2 ^ (32 - c) * (x' / 2 ^ (32 - c)) + x' % 2 ^ (32 - c)) + 32 * (2 ^ (25 + c) * y)) =
      (2 ^ c * (x' % 2 ^ (32 - c)) + x / 2 ^ (30 - c)) + 32 * (2 ^ 27 * (x' / 2 ^ (32 - c)) + 2 ^ (25 + c) * y) := by
    rw [Nat.mul_add, ← Nat.mul_assoc, e4]
    ring
  rw [e5, Nat.add_mul_mod_self_left]

/-- The window read for round `i`, and the new position. -/
theorem nextWindow_spec (a : BN) (ha : Normal a) (i idx ashift : Nat) (h : 30 * idx + ashift = 4 * (i + 1)) (hidx : idx < 9) (hs : ashift < 30) :
    ((nextWindow a idx ashift).1 &&& 31).toNat = limbValue a / 16 ^ i % 32 ∧
      30 * (nextWindow a idx ashift).2.1 + (nextWindow a idx ashift).2.2 = 4 * i ∧
      (nextWindow a idx ashift).2.1 < 9 ∧ (nextWindow a idx ashift).2.2 < 30 := by
  have h16 : 16 ^ i = 2 ^ (4 * i) := by rw [Nat.pow_mul]
  unfold nextWindow
  split
  · obtain ⟨idx, rfl⟩ : ∃ m, idx = m + 1 := ⟨idx - 1, by omega⟩
    have := window_cross a ha idx (4 - ashift) hidx (by omega) (by omega)
    rw [show 30 - (4 - ashift) = ashift + 26 by omega, show 30 * idx + (ashift + 26) = 4 * i by omega] at this
    refine ⟨by rw [h16]; exact this, ?_, ?_, ?_⟩ <;> simp only [Nat.add_sub_cancel] <;> omega
  · have := window_same a ha idx (ashift - 4) hidx (by omega)
    rw [show 30 * idx + (ashift - 4) = 4 * i by omega] at this
    refine ⟨by rw [h16]; exact this, ?_, hidx, ?_⟩ <;> simp only <;> omega

theorem shift4_spec (a : List UInt32) (h : ∀ x ∈ a, x.toNat < 2 ^ 30) :
    limbValue (shift4 a) = limbValue a / 16 ∧ (∀ x ∈ shift4 a, x.toNat < 2 ^ 30) ∧ (shift4 a).length = a.length := by
  induction a with
  | nil => simp [shift4, limbValue]
  | cons x xs ih =>
    have hx := h x (by simp)
    obtain ⟨i1, i2, i3⟩ := ih (fun y hy => h y (List.mem_cons_of_mem _ hy))
    cases xs with
    | nil =>
      have e1 : (x >>> 4).toNat = x.toNat / 2 ^ 4 := toNat_shr x 4 (by norm_num)
      simp only [shift4, limbValue, List.mem_singleton, forall_eq, e1]
      refine ⟨by omega, by omega, by simp⟩
    | cons y ys =>
      have hy := h y (by simp)
      have e1 : (x >>> 4).toNat = x.toNat / 2 ^ 4 := toNat_shr x 4 (by norm_num)
      have e2 : ((y &&& 0xf) <<< (26 : UInt32)).toNat = 2 ^ 26 * (y.toNat % 16) := by
        have e3 : ((y &&& 0xf) <<< (26 : UInt32)).toNat = (y &&& 0xf).toNat * 2 ^ 26 % 2 ^ 32 := toNat_shl (y &&& 0xf) 26 (by norm_num)
        have e4 : (y &&& 0xf).toNat = y.toNat % 16 := by rw [UInt32.toNat_and]; exact Nat.and_two_pow_sub_one_eq_mod _ 4
        rw [e3, e4]
        omega
      have e5 : ((x >>> 4) ||| ((y &&& 0xf) <<< (26 : UInt32))).toNat = 2 ^ 26 * (y.toNat % 16) + x.toNat / 2 ^ 4 := by
        rw [UInt32.toNat_or, e1, e2, Nat.or_comm, ← Nat.two_pow_add_eq_or_of_lt (by omega)]
      refine ⟨?_, ?_, ?_⟩
      · rw [shift4, limbValue, e5, i1]
        simp only [limbValue]
        omega
      · intro z hz
        rw [shift4] at hz
        rcases List.mem_cons.mp hz with rfl | hz
        · rw [e5]; omega
        · exact i2 z hz
      · rw [shift4]; simp only [List.length_cons, i3]

/-! ### The loops -/

theorem zsmul_double4 (P : Pt) : (P + P + (P + P) + (P + P + (P + P))) + (P + P + (P + P) + (P + P + (P + P))) = (16 : Int) • P := by module

theorem oddMultiples_spec (p2 : CurvePoint) (P : Pt) (h2 : IsPoint p2.x p2.y (P + P)) : ∀ (n : Nat) (c : CurvePoint) (m : Nat),
    IsPoint c.x c.y ((2 * m + 1) • P) →
    ∃ l, oddMultiples p2 n c = .ok l ∧ ∀ j ≤ n, ∃ d, l[j]? = some d ∧ IsPoint d.x d.y ((2 * (m + j) + 1) • P) := by
  intro n
  induction n with
  | zero =>
    intro c m hc
    refine ⟨[c], rfl, fun j hj => ?_⟩
    obtain rfl : j = 0 := by omega
    exact ⟨c, rfl, hc⟩
  | succ n ih =>
    intro c m hc
    obtain ⟨d, hd1, hd2⟩ := point_add_spec hc h2
    have e : (2 * m + 1) • P + (P + P) = (2 * (m + 1) + 1) • P := by module
    rw [e] at hd2
    obtain ⟨l, hl1, hl2⟩ := ih d (m + 1) hd2
    refine ⟨c :: l, by rw [oddMultiples, hd1, C.bind_ok, hl1]; rfl, fun j hj => ?_⟩
    cases j with
    | zero => exact ⟨c, rfl, hc⟩
    | succ j =>
      obtain ⟨x, hx1, hx2⟩ := hl2 j (by omega)
      exact ⟨x, by simpa using hx1, by rw [show m + (j + 1) = m + 1 + j by omega]; exact hx2⟩

/-- The sign of a digit as a factor. -/
def sgn (b : Bool) : Int := if b then 1 else -1

theorem sgn_mul_self (b : Bool) : sgn b * sgn b = 1 := by cases b <;> rfl

theorem sgn_dvd (b : Bool) (n x : Int) : n ∣ sgn b * x ↔ n ∣ x := by cases b <;> simp [sgn]

theorem neg_if_sgn (b : Bool) (P : Pt) : (if b then -P else P) = (-sgn b) • P := by cases b <;> simp [sgn]

/-- The point added for a digit. -/
theorem digit_point {l : List CurvePoint} {P : Pt} (hl : ∀ j < 8, ∃ d, l[j]? = some d ∧ IsPoint d.x d.y ((2 * j + 1) • P)) (w : UInt32) (hw : w.toNat < 32) :
    ∃ d, entry l ((digitBits w).2 >>> 1).toNat = .ok d ∧ IsPoint d.x d.y ((sgn (decide (16 ≤ w.toNat)) * dig w.toNat) • P) := by
  obtain ⟨-, h2, h3, -⟩ := digitBits_spec w hw
  obtain ⟨d, hd1, hd2⟩ := hl _ h2
  refine ⟨d, by rw [entry, hd1], ?_⟩
  convert hd2 using 1
  rw [← natCast_zsmul, h3]
  by_cases c : 16 ≤ w.toNat
  · simp [sgn, c]
  · simp [sgn, c]

theorem dig_bounds (w : Nat) (h : w < 32) : dig w ≠ 0 ∧ |dig w| ≤ 15 := by
  unfold dig
  constructor
  · omega
  · rw [abs_le]; omega

theorem digit_ne {P : Pt} (hP : P ≠ 0) (b : Bool) (w : Nat) (h : w < 32) : (sgn b * dig w) • P ≠ 0 := by
  rw [Ne, zsmul_eq_zero_iff hP]
  intro hd
  obtain ⟨h1, h2⟩ := dig_bounds w h
  have hn : 15 < secpN := by decide +kernel
  have hne : sgn b * dig w ≠ 0 := mul_ne_zero (by cases b <;> decide) h1
  have h3 := Int.le_of_dvd (abs_pos.mpr hne) ((dvd_abs _ _).mpr hd)
  have h4 : |sgn b * dig w| = |dig w| := by cases b <;> simp [sgn]
  omega

theorem pointMultiplyLoop_spec (a : BN) (ha : Normal a) (hodd : limbValue a % 2 = 1) (hA : limbValue a < 2 ^ 257)
    (h0 : ¬ (secpN : Int) ∣ topSum (limbValue a) 0) (l : List CurvePoint) (P : Pt) (hP : P ≠ 0)
    (hl : ∀ j < 8, ∃ d, l[j]? = some d ∧ IsPoint d.x d.y ((2 * j + 1) • P)) :
    ∀ (i : Nat) (j : JacobianPoint) (b : Bool) (idx ashift : Nat), i ≤ 63 → 30 * idx + ashift = 4 * i → idx < 9 → ashift < 30 →
      JRep j ((sgn b * topSum (limbValue a) i) • P) →
      ∃ r, pointMultiplyLoop a l i j (if b then 0 else 0xffffffff) idx ashift = .ok r ∧ IsPoint r.x r.y (topSum (limbValue a) 0 • P) := by
  intro i
  induction i with
  | zero =>
    intro j b idx ashift _ _ _ _ hj
    obtain ⟨z, hz1, hz2⟩ := jneg_z hj (!b)
    obtain ⟨r, hr1, hr2⟩ := toCurve_spec hz2
    refine ⟨r, ?_, ?_⟩
    · rw [pointMultiplyLoop]
      have : (if b then 0 else 0xffffffff : UInt32) = if (!b) = true then 0xffffffff else 0 := by cases b <;> rfl
      rw [this, hz1]
      exact hr1
    · convert hr2 using 1
      rw [neg_if_sgn, smul_smul, ← mul_assoc]
      cases b <;> simp [sgn]
  | succ i ih =>
    intro j b idx ashift hi hpos hidx hsh hj
    obtain ⟨w1, w2, w3, w4⟩ := nextWindow_spec a ha i idx ashift hpos hidx hsh
    set w := (nextWindow a idx ashift).1 &&& 31 with hw
    have hw32 : w.toNat < 32 := by rw [w1]; exact Nat.mod_lt _ (by norm_num)
    have hj4 := jdouble_spec (jdouble_spec (jdouble_spec (jdouble_spec hj)))
    rw [zsmul_double4] at hj4
    obtain ⟨d1, -, -, -⟩ := digitBits_spec w hw32
    set b' := decide (16 ≤ w.toNat) with hb'
    have d1' : (digitBits w).1 = if b' then 0 else 0xffffffff := by
      rw [d1]
      by_cases c : 16 ≤ w.toNat <;> simp [hb', c]
    have hx : ((if b then 0 else 0xffffffff : UInt32) ^^^ (digitBits w).1) = if (b != b') = true then 0xffffffff else 0 := by
      rw [d1']
      cases b <;> cases b' <;> rfl
    obtain ⟨z, hz1, hz2⟩ := jneg_z hj4 (b != b')
    obtain ⟨d, hd1, hd2⟩ := digit_point hl w hw32
    rw [← hb'] at hd2
    have hstep := topSum_step (limbValue a) i (by omega)
    rw [← w1] at hstep
    have e1 : (if (b != b') = true then -((16 : Int) • (sgn b * topSum (limbValue a) (i + 1)) • P) else ((16 : Int) • (sgn b * topSum (limbValue a) (i + 1)) • P)) =
        (sgn b' * (16 * topSum (limbValue a) (i + 1))) • P := by
      rw [neg_if_sgn, smul_smul, smul_smul]
      congr 1
      cases b <;> cases b' <;> simp [sgn]
    rw [e1] at hz2
    have hne : (sgn b' * dig w.toNat) • P ≠ -((sgn b' * (16 * topSum (limbValue a) (i + 1))) • P) := by
      intro hc
      rw [eq_neg_iff_add_eq_zero, ← add_zsmul, ← mul_add, add_comm, ← hstep, zsmul_eq_zero_iff hP] at hc
      have hc' : (secpN : Int) ∣ topSum (limbValue a) i := (sgn_dvd _ _ _).mp hc
      cases i with
      | zero => exact h0 hc'
      | succ i => exact topSum_ne _ _ hA (by omega) (by omega) hc'
    have hadd := jadd_spec hd2 (digit_ne hP _ _ hw32) hz2 hne
    rw [← add_zsmul, ← mul_add, add_comm, ← hstep] at hadd
    obtain ⟨r, hr1, hr2⟩ := ih _ b' _ _ (by omega) w2 w3 w4 hadd
    refine ⟨r, ?_, hr2⟩
    rw [pointMultiplyLoop]
    simp only [← hw]
    rw [hx, hz1, C.bind_ok, hd1, C.bind_ok, d1']
    exact hr1

theorem topSum_zero {A : Nat} (h : A % 2 = 1) : topSum A 0 = (A : Int) - 2 ^ 256 := by
  unfold topSum
  norm_num
  omega

theorem zsmul_congr {P : Pt} {x y : Int} (h : (secpN : Int) ∣ x - y) : x • P = y • P := by
  obtain ⟨c, hc⟩ := h
  have : x = y + c * secpN := by linarith
  rw [this, add_zsmul, mul_zsmul, natCast_zsmul, nsmul_order, zsmul_zero, add_zero]

theorem two57 : (32 : Nat) * 16 ^ 63 = 2 ^ 257 := by
  rw [show (16 : Nat) = 2 ^ 4 by norm_num, ← Nat.pow_mul, show (32 : Nat) = 2 ^ 5 by norm_num, ← Nat.pow_add]

/-- `point_multiply` for a point that is not the point at infinity. -/
theorem pointMultiply_spec (k : BN) (hk : Normal k) (hl : limbValue k < secpN) {p : CurvePoint} {P : Pt} (h : IsPoint p.x p.y P) (hP : P ≠ 0)
    (z : BN) (hz : Normal z) (hz0 : 0 < limbValue z) (hzl : limbValue z < secpP) :
    ∃ r, pointMultiply k p z = .ok r ∧ IsPoint r.x r.y (limbValue k • P) := by
  obtain ⟨a1, a2, a3, a4⟩ := recode_facts k hk hl
  have hless : BN.isLess k Secp.order = true := (isLess_iff hk modulus_order.normal).mpr (by rw [value_order]; exact hl)
  unfold pointMultiply
  simp only [hless]
  set a := recode k Secp.order with hadef
  have ho : (a.headD 0 &&& 1 != 0) = true := by
    have := (isOdd_iff a).mpr a2
    rw [isOdd, beq_iff_eq] at this
    rw [this]
    decide
  simp only [ho, BN.require, if_true, C.bind_ok]
  by_cases hk0 : k.isZero = true
  · rw [if_pos hk0]
    rw [isZero_iff] at hk0
    exact ⟨_, rfl, by rw [hk0, zero_nsmul]; exact isPoint_infinity⟩
  rw [if_neg hk0]
  rw [isZero_iff] at hk0
  obtain ⟨p2, hp1, hp2⟩ := point_double_spec h
  obtain ⟨l, hl1, hl2⟩ := oddMultiples_spec p2 P hp2 7 p 0 (by simpa using h)
  have hl3 : ∀ j < 8, ∃ d, l[j]? = some d ∧ IsPoint d.x d.y ((2 * j + 1) • P) := fun j hj => by
    have := hl2 j (by omega)
    rwa [Nat.zero_add] at this
  rw [hp1, C.bind_ok, hl1, C.bind_ok]
  have htop : (a.getD 8 0 >>> 12).toNat = limbValue a / 16 ^ 63 := by
    have e1 : (a.getD 8 0 >>> 12).toNat = (a.getD 8 0).toNat / 2 ^ 12 := toNat_shr _ 12 (by norm_num)
    have e2 := limbValue_div a a1.small 8
    rw [limbValue_drop a 8 (by rw [a1.len]; norm_num), List.drop_eq_nil_of_le (by rw [a1.len]), limbValue, Nat.mul_zero, Nat.add_zero] at e2
    rw [e1, ← e2, Nat.div_div_eq_div_mul, ← Nat.pow_add, show (16 : Nat) = 2 ^ 4 by norm_num, ← Nat.pow_mul]
  have hw32 : (a.getD 8 0 >>> 12).toNat < 32 := by
    rw [htop, Nat.div_lt_iff_lt_mul (by positivity), two57]
    exact a3
  obtain ⟨d, hd1, hd2⟩ := digit_point hl3 _ hw32
  obtain ⟨s1, -, -, -⟩ := digitBits_spec _ hw32
  set b := decide (16 ≤ (a.getD 8 0 >>> 12).toNat) with hb
  have s1' : (digitBits (a.getD 8 0 >>> 12)).1 = if b then 0 else 0xffffffff := by
    rw [s1]
    by_cases c : 16 ≤ (a.getD 8 0 >>> 12).toNat <;> simp only [hb, c, if_true, if_false, decide_true, decide_false, Bool.false_eq_true]
  have hj := toJacobian_spec hd2 (digit_ne hP b _ hw32) z hz hz0 hzl
  rw [htop, ← topSum_top _ a3] at hj
  have h0 : ¬ (secpN : Int) ∣ topSum (limbValue a) 0 := by
    rw [topSum_zero a2]
    intro hc
    have := (Int.dvd_sub hc a4)
    have h3 : (secpN : Int) ∣ (limbValue k : Int) := by
      have e : (limbValue k : Int) = (limbValue a : Int) - 2 ^ 256 - ((limbValue a : Int) - 2 ^ 256 - limbValue k) := by ring
      rw [e]
      exact this
    have h4 := Int.natCast_dvd_natCast.mp h3
    exact hk0 (Nat.eq_zero_of_dvd_of_lt h4 hl)
  obtain ⟨r, hr1, hr2⟩ := pointMultiplyLoop_spec a a1 a2 a3 h0 l P hP hl3 63 _ b 8 12 (le_refl _) (by norm_num) (by norm_num) (by norm_num) hj
  rw [hd1, C.bind_ok, s1']
  refine ⟨r, hr1, ?_⟩
  rw [topSum_zero a2, zsmul_congr a4, natCast_zsmul] at hr2
  exact hr2

theorem pow16_G_ne {i : Nat} (h : i ≤ 63) : (16 ^ i) • G ≠ 0 := by
  rw [← natCast_zsmul, Ne, zsmul_eq_zero_iff at_G.ne_zero]
  intro hc
  have h1 := Nat.le_of_dvd (by positivity) (Int.natCast_dvd_natCast.mp hc)
  have h2 : (16 : Nat) ^ i ≤ 16 ^ 63 := Nat.pow_le_pow_right (by norm_num) h
  have hn : 16 ^ 63 < secpN := by decide +kernel
  omega

theorem low5 (a : BN) (ha : Normal a) : (a.headD 0 &&& 31).toNat = limbValue a % 32 := by
  have h := window_same a ha 0 0 (by norm_num) (by norm_num)
  have e : a.getD 0 0 >>> (0 : Nat).toUInt32 = a.headD 0 := by
    have hl := ha.len
    cases a with
    | nil => cases hl
    | cons x xs =>
      rw [← UInt32.toNat_inj, toNat_shr _ _ (by norm_num)]
      simp
  rw [e] at h
  simpa using h

theorem scalarMultiplyLoop_spec (A : Nat) (hodd : A % 2 = 1) (hA : A < 2 ^ 257) (h63 : ¬ (secpN : Int) ∣ lowSum A 63) :
    ∀ (n i : Nat) (rows : List (List CurvePoint)) (a : BN) (j : JacobianPoint), i + n = 63 → rows.length = n →
      (∀ m < n, ∃ row, rows[m]? = some row ∧ ∀ t < 8, ∃ d, row[t]? = some d ∧ IsPoint d.x d.y ((2 * t + 1) • (16 ^ (i + 1 + m)) • G)) →
      Normal a → limbValue a = A / 16 ^ i → JRep j ((sgn (decide (A / 16 ^ (i + 1) % 2 = 1)) * lowSum A i) • G) →
      ∃ r, scalarMultiplyLoop rows a j = .ok r ∧ IsPoint r.x r.y (lowSum A 63 • G) := by
  intro n
  induction n with
  | zero =>
    intro i rows a j hi hrl hr ha hav hj
    obtain rfl : i = 63 := by omega
    obtain rfl : rows = [] := List.length_eq_zero_iff.mp hrl
    set b := decide (A / 16 ^ (63 + 1) % 2 = 1) with hb
    have hw : ((a.headD 0 >>> 4) &&& 1) - 1 = if (!b) = true then 0xffffffff else 0 := by
      have h1 := window_same a ha 0 4 (by norm_num) (by norm_num)
      have e : a.getD 0 0 >>> (4 : Nat).toUInt32 = a.headD 0 >>> 4 := by
        cases a with
        | nil => rfl
        | cons x xs => rfl
      rw [e, hav] at h1
      have h2 : ((a.headD 0 >>> 4) &&& 1).toNat = A / 16 ^ (63 + 1) % 2 := by
        have e1 : ((a.headD 0 >>> 4) &&& 1).toNat = (a.headD 0 >>> 4).toNat % 2 := by
          rw [UInt32.toNat_and]; exact Nat.and_two_pow_sub_one_eq_mod _ 1
        have e2 : ((a.headD 0 >>> 4) &&& 31).toNat = (a.headD 0 >>> 4).toNat % 32 := by
          rw [UInt32.toNat_and]; exact Nat.and_two_pow_sub_one_eq_mod _ 5
        rw [e2] at h1
        rw [e1, Nat.pow_succ, ← Nat.div_div_eq_div_mul]
        simp only [Nat.mul_zero, Nat.zero_add] at h1
        generalize A / 16 ^ 63 = B at h1
        omega
      rcases Nat.mod_two_eq_zero_or_one (A / 16 ^ (63 + 1)) with h | h
      · have hbf : b = false := by rw [hb, h]; rfl
        rw [h] at h2
        rw [hbf, show (a.headD 0 >>> 4) &&& 1 = 0 from UInt32.toNat_inj.mp h2]
        rfl
      · have hbf : b = true := by rw [hb, h]; rfl
        rw [h] at h2
        rw [hbf, show (a.headD 0 >>> 4) &&& 1 = 1 from UInt32.toNat_inj.mp h2]
        rfl
    obtain ⟨y, hy1, hy2⟩ := jneg_y hj (!b)
    obtain ⟨r, hr1, hr2⟩ := toCurve_spec hy2
    refine ⟨r, ?_, ?_⟩
    · rw [scalarMultiplyLoop, hw, hy1]
      exact hr1
    · convert hr2 using 1
      rw [neg_if_sgn, smul_smul, ← mul_assoc]
      cases b <;> simp [sgn]
  | succ n ih =>
    intro i rows a j hi hrl hr ha hav hj
    obtain ⟨row, rows, rfl⟩ : ∃ x xs, rows = x :: xs := by
      cases rows with
      | nil => simp at hrl
      | cons x xs => exact ⟨x, xs, rfl⟩
    obtain ⟨row', hrow', hrow⟩ := hr 0 (by omega)
    simp only [List.getElem?_cons_zero, Option.some.injEq] at hrow'
    subst hrow'
    rw [Nat.add_zero] at hrow
    obtain ⟨s1, s2, s3⟩ := shift4_spec a ha.small
    have ha' : Normal (shift4 a) := ⟨by rw [s3, ha.len], s2⟩
    have hav' : limbValue (shift4 a) = A / 16 ^ (i + 1) := by rw [s1, hav, Nat.div_div_eq_div_mul, ← Nat.pow_succ]
    have w1 := low5 _ ha'
    rw [hav'] at w1
    set w := (shift4 a).headD 0 &&& 31 with hw
    have hw32 : w.toNat < 32 := by rw [w1]; exact Nat.mod_lt _ (by norm_num)
    obtain ⟨-, -, -, d4⟩ := digitBits_spec w hw32
    set b := decide (A / 16 ^ (i + 1) % 2 = 1) with hb
    set b' := decide (16 ≤ w.toNat) with hb'
    have hbb : b' = decide (A / 16 ^ (i + 1 + 1) % 2 = 1) := by
      rw [hb', w1, Nat.pow_succ _ (i + 1), ← Nat.div_div_eq_div_mul]
      generalize A / 16 ^ (i + 1) = B
      rw [decide_eq_decide]
      omega
    have hwo : (w.toNat % 2 = 1) ↔ (A / 16 ^ (i + 1) % 2 = 1) := by rw [w1]; omega
    have hx : ((digitBits w).2 &&& 1) - 1 = if (b != b') = true then 0xffffffff else 0 := by
      rw [d4]
      by_cases c1 : 16 ≤ w.toNat <;> by_cases c2 : A / 16 ^ (i + 1) % 2 = 1 <;> simp [hb, hb', c1, c2, hwo]
    obtain ⟨y, hy1, hy2⟩ := jneg_y hj (b != b')
    obtain ⟨d, hd1, hd2⟩ := digit_point hrow w hw32
    rw [← hb'] at hd2
    have hstep := lowSum_step A i
    rw [← w1] at hstep
    have e1 : (if (b != b') = true then -((sgn b * lowSum A i) • G) else ((sgn b * lowSum A i) • G)) = (sgn b' * lowSum A i) • G := by
      rw [neg_if_sgn, smul_smul]
      congr 1
      cases b <;> cases b' <;> simp [sgn]
    rw [e1] at hy2
    have e2 : (sgn b' * dig w.toNat) • (16 ^ (i + 1)) • G = (sgn b' * (dig w.toNat * 16 ^ (i + 1))) • G := by
      rw [← natCast_zsmul, smul_smul, mul_assoc]
      push_cast
      rfl
    have hne0 := digit_ne (pow16_G_ne (show i + 1 ≤ 63 by omega)) b' _ hw32
    rw [e2] at hd2 hne0
    have hne : (sgn b' * (dig w.toNat * 16 ^ (i + 1))) • G ≠ -((sgn b' * lowSum A i) • G) := by
      intro hc
      rw [eq_neg_iff_add_eq_zero, ← add_zsmul, ← mul_add, add_comm, ← hstep, zsmul_eq_zero_iff at_G.ne_zero] at hc
      have hc' : (secpN : Int) ∣ lowSum A (i + 1) := (sgn_dvd _ _ _).mp hc
      by_cases h62 : i + 1 ≤ 62
      · exact lowSum_ne A (i + 1) hodd h62 hc'
      · obtain rfl : i = 62 := by omega
        exact h63 hc'
    have hadd := jadd_spec hd2 hne0 hy2 hne
    rw [← add_zsmul, ← mul_add, add_comm, ← hstep, hbb] at hadd
    obtain ⟨r, hr1, hr2⟩ := ih (i + 1) rows (shift4 a) _ (by omega) (by simpa using hrl) (fun m hm => by
      have := hr (m + 1) (by omega)
      simpa [show i + 1 + (m + 1) = i + 1 + 1 + m by omega] using this) ha' hav' hadd
    refine ⟨r, ?_, hr2⟩
    rw [scalarMultiplyLoop]
    simp only [← hw]
    rw [hx, hy1, C.bind_ok, hd1, C.bind_ok]
    exact hr1

theorem lowSum_last {A : Nat} (h : A < 2 ^ 257) : lowSum A 63 = (A : Int) - 2 ^ 256 := by
  unfold lowSum
  have : A / 16 ^ (63 + 1) / 2 = 0 := by norm_num; omega
  rw [this]
  norm_num

/-- `scalar_multiply`. -/
theorem scalarMultiply_spec (k : BN) (hk : Normal k) (hl : limbValue k < secpN)
    (z : BN) (hz : Normal z) (hz0 : 0 < limbValue z) (hzl : limbValue z < secpP) :
    ∃ r, scalarMultiply k z = .ok r ∧ IsPoint r.x r.y (limbValue k • G) := by
  obtain ⟨a1, a2, a3, a4⟩ := recode_facts k hk hl
  have hless : BN.isLess k Secp.order = true := (isLess_iff hk modulus_order.normal).mpr (by rw [value_order]; exact hl)
  unfold scalarMultiply
  simp only [hless]
  set a := recode k Secp.order with hadef
  have ho : (a.headD 0 &&& 1 != 0) = true := by
    have := (isOdd_iff a).mpr a2
    rw [isOdd, beq_iff_eq] at this
    rw [this]
    decide
  simp only [ho, BN.require, if_true, C.bind_ok]
  by_cases hk0 : k.isZero = true
  · rw [if_pos hk0]
    rw [isZero_iff] at hk0
    exact ⟨_, rfl, by rw [hk0, zero_nsmul]; exact isPoint_infinity⟩
  rw [if_neg hk0]
  rw [isZero_iff] at hk0
  have hrows : ∀ i < 64, ∃ row, Secp.cp[i]? = some row ∧ ∀ t < 8, ∃ d, row[t]? = some d ∧ IsPoint d.x d.y ((2 * t + 1) • (16 ^ i) • G) := by
    intro i hi
    obtain ⟨row, -, hr, -⟩ := cp_at hi (show 0 < 8 by norm_num)
    refine ⟨row, hr, fun t ht => ?_⟩
    obtain ⟨row', d, h1, h2, h3⟩ := cp_at hi ht
    rw [hr, Option.some.injEq] at h1
    subst h1
    exact ⟨d, h2, by rw [← mul_nsmul']; exact h3⟩
  obtain ⟨row, hr0, hr1⟩ := hrows 0 (by norm_num)
  have w1 := low5 a a1
  set w := a.headD 0 &&& 31 with hw
  have hw32 : w.toNat < 32 := by rw [w1]; exact Nat.mod_lt _ (by norm_num)
  simp only [Nat.pow_zero, one_nsmul] at hr1
  obtain ⟨d, hd1, hd2⟩ := digit_point hr1 w hw32
  set b := decide (16 ≤ w.toNat) with hb
  have hbb : b = decide (limbValue a / 16 ^ (0 + 1) % 2 = 1) := by
    rw [hb, w1, decide_eq_decide]
    norm_num
    omega
  have hj := toJacobian_spec hd2 (digit_ne at_G.ne_zero b _ hw32) z hz hz0 hzl
  rw [w1, ← lowSum_zero _ a2, hbb] at hj
  have h63 : ¬ (secpN : Int) ∣ lowSum (limbValue a) 63 := by
    rw [lowSum_last a3]
    intro hc
    have := (Int.dvd_sub hc a4)
    have h3 : (secpN : Int) ∣ (limbValue k : Int) := by
      have e : (limbValue k : Int) = (limbValue a : Int) - 2 ^ 256 - ((limbValue a : Int) - 2 ^ 256 - limbValue k) := by ring
      rw [e]
      exact this
    have h4 := Int.natCast_dvd_natCast.mp h3
    exact hk0 (Nat.eq_zero_of_dvd_of_lt h4 hl)
  have hlen : (Secp.cp.drop 1).length = 63 := by decide +kernel
  obtain ⟨r, hr1, hr2⟩ := scalarMultiplyLoop_spec (limbValue a) a2 a3 h63 63 0 (Secp.cp.drop 1) a _ (by norm_num) hlen (fun m hm => by
    have := hrows (1 + m) (by omega)
    rw [List.getElem?_drop, Nat.zero_add]
    exact this) a1 (by simp) hj
  have e0 : entry Secp.cp 0 = .ok row := by rw [entry, hr0]
  rw [e0, C.bind_ok, hd1, C.bind_ok]
  refine ⟨r, hr1, ?_⟩
  rw [lowSum_last a3, zsmul_congr a4, natCast_zsmul] at hr2
  exact hr2

end UB
