import Verif.Lemmas.BignumLoop

namespace UB
open Spec
namespace BN

/-! ### The inverse of the lowest word -/

theorem wordInverse_spec (a : UInt32) (fuel : Nat) : ∀ (amone inv : UInt32), fuel ≤ 5 → 2 ^ (2 ^ (5 - fuel)) ∣ amone.toNat → inv * a = amone * amone - 1 →
    ∃ r, wordInverse fuel amone inv = .ok r ∧ r * a = -1 := by
  induction fuel with
  | zero =>
    intro amone inv _ hd hi
    have : amone = 0 := by
      rw [← UInt32.toNat_inj]
      have := amone.toNat_lt
      simp only [Nat.sub_zero] at hd
      exact Nat.eq_zero_of_dvd_of_lt hd (by norm_num; omega)
    subst this
    exact ⟨inv, by simp [wordInverse], by rw [hi]; rfl⟩
  | succ fuel ih =>
    intro amone inv hf hd hi
    by_cases z : amone = 0
    · subst z
      exact ⟨inv, by simp [wordInverse], by rw [hi]; rfl⟩
    · unfold wordInverse
      rw [if_neg (by rw [beq_iff_eq]; exact z)]
      apply ih _ _ (by omega)
      · rw [UInt32.toNat_mul]
        have h1 : 2 ^ 2 ^ (5 - fuel) ∣ amone.toNat * amone.toNat := by
          rw [show 5 - fuel = 5 - (fuel + 1) + 1 by omega, Nat.pow_succ, Nat.pow_mul, Nat.pow_two]
          exact Nat.mul_dvd_mul hd hd
        have h2 : 2 ^ 2 ^ (5 - fuel) ∣ 2 ^ 32 := by
          apply Nat.pow_dvd_pow
          calc 2 ^ (5 - fuel) ≤ 2 ^ 5 := Nat.pow_le_pow_right (by norm_num) (by omega)
            _ = 32 := by norm_num
        exact (Nat.dvd_mod_iff h2).mpr h1
      · grind

theorem wordInverse_ok (a : UInt32) (h : a.toNat % 2 = 1) : ∃ r, wordInverse 5 (a - 1) (a - 2) = .ok r ∧ r * a = -1 := by
  apply wordInverse_spec a 5 _ _ (le_refl _)
  · have : (a - 1).toNat = a.toNat - 1 := by
      rw [UInt32.toNat_sub_of_le _ _ (by rw [UInt32.le_iff_toNat_le, UInt32.toNat_one]; omega), UInt32.toNat_one]
    rw [this]
    simp only [Nat.sub_self, Nat.pow_zero, Nat.pow_one]
    omega
  · grind

/-! ### Division by a power of two -/

theorem mulAdd64 (s p f : UInt32) : (s.toUInt64 + p.toUInt64 * f.toUInt64).toNat = s.toNat + p.toNat * f.toNat ∧ s.toNat + p.toNat * f.toNat ≤ 2 ^ 64 - 2 ^ 32 := by
  have hs := s.toNat_lt
  have hp := p.toNat_lt
  have hf := f.toNat_lt
  have h1 : p.toNat * f.toNat ≤ (2 ^ 32 - 1) * (2 ^ 32 - 1) := Nat.mul_le_mul (by omega) (by omega)
  refine ⟨?_, by omega⟩
  rw [UInt64.toNat_add, UInt64.toNat_mul, UInt32.toNat_toUInt64, UInt32.toNat_toUInt64, UInt32.toNat_toUInt64, Nat.mod_eq_of_lt (show p.toNat * f.toNat < 2 ^ 64 by omega)]
  exact Nat.mod_eq_of_lt (by omega)

theorem divLoop_spec (f : UInt32) : ∀ (ss ps : List UInt32) (temp : UInt64), ss.length = ps.length → temp.toNat < 2 ^ 32 →
    (divLoop f temp ss ps).length = ss.length + 1 ∧ wordValue (divLoop f temp ss ps) = temp.toNat + wordValue ss + f.toNat * wordValue ps := by
  intro ss
  induction ss with
  | nil =>
    intro ps temp hl ht
    refine ⟨by simp [divLoop], ?_⟩
    have : ps = [] := List.length_eq_zero_iff.mp hl.symm
    subst this
    simp only [divLoop, wordValue, UInt64.toNat_toUInt32, Nat.mul_zero, Nat.add_zero]
    omega
  | cons s ss ih =>
    intro ps temp hl ht
    cases ps with
    | nil => simp at hl
    | cons p ps =>
      simp only [List.length_cons, Nat.add_right_cancel_iff] at hl
      obtain ⟨m1, m2⟩ := mulAdd64 s p f
      have e : (temp + (s.toUInt64 + p.toUInt64 * f.toUInt64)).toNat = temp.toNat + (s.toNat + p.toNat * f.toNat) := by
        rw [UInt64.toNat_add, m1]; exact Nat.mod_eq_of_lt (by omega)
      simp only [divLoop, List.length_cons, wordValue]
      obtain ⟨i1, i2⟩ := ih ps ((temp + (s.toUInt64 + p.toUInt64 * f.toUInt64)) >>> 32) hl (by rw [toNat_shr64_32, e]; omega)
      refine ⟨by omega, ?_⟩
      rw [i2, toNat_shr64_32, UInt64.toNat_toUInt32, e]
      have := Nat.div_add_mod (temp.toNat + (s.toNat + p.toNat * f.toNat)) (2 ^ 32)
      rw [Nat.mul_add, Nat.mul_add, Nat.mul_add, Nat.mul_left_comm (2 ^ 32) f.toNat, Nat.mul_left_comm f.toNat (2 ^ 32), Nat.mul_comm f.toNat p.toNat]
      omega

theorem divWord_spec (inv : UInt32) (pp s : List UInt32) (hl : s.length = pp.length) (h0 : pp ≠ []) (hinv : inv * pp.headD 0 = -1) (hs : wordValue s < wordValue pp) :
    ∃ s' f, divWord inv pp s = .ok s' ∧ s'.length = s.length ∧ wordValue s' * 2 ^ 32 = wordValue s + f * wordValue pp ∧ wordValue s' < wordValue pp := by
  cases pp with
  | nil => exact absurd rfl h0
  | cons p0 ps =>
    cases s with
    | nil => simp at hl
    | cons s0 ss =>
      simp only [List.length_cons, Nat.add_right_cancel_iff] at hl
      simp only [List.headD_cons] at hinv
      obtain ⟨m1, m2⟩ := mulAdd64 s0 p0 (inv * s0)
      have hz : (s0.toNat + p0.toNat * (inv * s0).toNat) % 2 ^ 32 = 0 := by
        have h1 : s0 + p0 * (inv * s0) = 0 := by grind
        have h2 := congrArg UInt32.toNat h1
        rw [UInt32.toNat_add, UInt32.toNat_mul, UInt32.toNat_zero] at h2
        rwa [Nat.add_mod, Nat.mod_mod, ← Nat.add_mod] at h2
      have hc : ((s0.toUInt64 + p0.toUInt64 * (inv * s0).toUInt64) &&& 0xFFFFFFFF) = 0 := by
        rw [← UInt64.toNat_inj, UInt64.toNat_and, m1, UInt64.toNat_zero]
        rw [← hz]
        exact Nat.and_two_pow_sub_one_eq_mod _ 32
      simp only [divWord, hc, BEq.rfl, if_true]
      obtain ⟨d1, d2⟩ := divLoop_spec (inv * s0) ss ps ((s0.toUInt64 + p0.toUInt64 * (inv * s0).toUInt64) >>> 32) hl (by rw [toNat_shr64_32, m1]; omega)
      have hv : wordValue (divLoop (inv * s0) ((s0.toUInt64 + p0.toUInt64 * (inv * s0).toUInt64) >>> 32) ss ps) * 2 ^ 32 =
          wordValue (s0 :: ss) + (inv * s0).toNat * wordValue (p0 :: ps) := by
        rw [d2, toNat_shr64_32, m1]
        simp only [wordValue]
        have := Nat.div_add_mod (s0.toNat + p0.toNat * (inv * s0).toNat) (2 ^ 32)
        rw [hz, Nat.add_zero] at this
        generalize (s0.toNat + p0.toNat * (inv * s0).toNat) / 2 ^ 32 = q at *
        nlinarith
      refine ⟨_, (inv * s0).toNat, rfl, by rw [d1, List.length_cons], hv, ?_⟩
      have hf := (inv * s0).toNat_lt
      have : (inv * s0).toNat * wordValue (p0 :: ps) ≤ (2 ^ 32 - 1) * wordValue (p0 :: ps) := Nat.mul_le_mul_right _ (by omega)
      apply Nat.lt_of_mul_lt_mul_right (a := 2 ^ 32)
      rw [hv]
      omega

theorem divWords_spec (inv : UInt32) (pp : List UInt32) (h0 : pp ≠ []) (hinv : inv * pp.headD 0 = -1) (n : Nat) : ∀ s, s.length = pp.length → wordValue s < wordValue pp →
    ∃ s' f, divWords inv pp n s = .ok s' ∧ s'.length = s.length ∧ wordValue s' * 2 ^ (32 * n) = wordValue s + f * wordValue pp ∧ wordValue s' < wordValue pp := by
  induction n with
  | zero => intro s _ hs; exact ⟨s, 0, rfl, rfl, by simp, hs⟩
  | succ n ih =>
    intro s hl hs
    obtain ⟨s1, f1, a1, a2, a3, a4⟩ := divWord_spec inv pp s hl h0 hinv hs
    obtain ⟨s2, f2, b1, b2, b3, b4⟩ := ih s1 (by omega) a4
    refine ⟨s2, f1 + f2 * 2 ^ 32, by simp only [divWords, a1, C.bind_ok, b1], by omega, ?_, b4⟩
    rw [show 32 * (n + 1) = 32 * n + 32 by ring, Nat.pow_add, ← Nat.mul_assoc, b3, Nat.add_mul, a3]
    ring

theorem toNat_shl64 (t : UInt64) (k : Nat) (h : k < 64) : (t <<< k.toUInt64).toNat = t.toNat * 2 ^ k % 2 ^ 64 := by
  rw [UInt64.toNat_shiftLeft, Nat.shiftLeft_eq]
  congr 3
  simp
  omega

theorem toNat_shr64' (t : UInt64) (k : Nat) (h : k < 64) : (t >>> k.toUInt64).toNat = t.toNat / 2 ^ k := by
  rw [UInt64.toNat_shiftRight, Nat.shiftRight_eq_div_pow]
  congr 2
  simp
  omega

theorem mulAdd_small (s p f : UInt32) (k : Nat) (hf : f.toNat < 2 ^ k) : s.toNat + p.toNat * f.toNat ≤ (2 ^ 32 - 1) * 2 ^ k := by
  have hs := s.toNat_lt
  have hp := p.toNat_lt
  have h1 : p.toNat * f.toNat ≤ (2 ^ 32 - 1) * (2 ^ k - 1) := Nat.mul_le_mul (by omega) (by omega)
  rw [Nat.mul_sub] at h1
  have : 0 < 2 ^ k := by positivity
  omega

theorem divBitsLoop_spec (k : Nat) (hk : k < 32) (hk0 : 0 < k) (f : UInt32) (hf : f.toNat < 2 ^ k) : ∀ (ss ps : List UInt32) (temp : UInt64), ss.length = ps.length → temp.toNat < 2 ^ 32 →
    (divBitsLoop k f temp ss ps).length = ss.length + 1 ∧
      wordValue (divBitsLoop k f temp ss ps) = temp.toNat + 2 ^ (32 - k) * (wordValue ss + f.toNat * wordValue ps) := by
  intro ss
  induction ss with
  | nil =>
    intro ps temp hl ht
    refine ⟨by simp [divBitsLoop], ?_⟩
    have : ps = [] := List.length_eq_zero_iff.mp hl.symm
    subst this
    simp only [divBitsLoop, wordValue, UInt64.toNat_toUInt32, Nat.mul_zero, Nat.add_zero]
    omega
  | cons s ss ih =>
    intro ps temp hl ht
    cases ps with
    | nil => simp at hl
    | cons p ps =>
      simp only [List.length_cons, Nat.add_right_cancel_iff] at hl
      obtain ⟨m1, -⟩ := mulAdd64 s p f
      have m3 := mulAdd_small s p f k hf
      have hpow : 2 ^ k * 2 ^ (32 - k) = 2 ^ 32 := by rw [← Nat.pow_add]; congr 1; omega
      have m4 : (s.toNat + p.toNat * f.toNat) * 2 ^ (32 - k) ≤ (2 ^ 32 - 1) * 2 ^ 32 := by
        have := Nat.mul_le_mul_right (2 ^ (32 - k)) m3
        rwa [Nat.mul_assoc, hpow] at this
      have e : (temp + ((s.toUInt64 + p.toUInt64 * f.toUInt64) <<< (32 - k).toUInt64)).toNat = temp.toNat + (s.toNat + p.toNat * f.toNat) * 2 ^ (32 - k) := by
        rw [UInt64.toNat_add, toNat_shl64 _ _ (by omega), m1, Nat.mod_eq_of_lt (show (s.toNat + p.toNat * f.toNat) * 2 ^ (32 - k) < 2 ^ 64 by omega)]
        exact Nat.mod_eq_of_lt (by omega)
      simp only [divBitsLoop, List.length_cons, wordValue]
      obtain ⟨i1, i2⟩ := ih ps ((temp + ((s.toUInt64 + p.toUInt64 * f.toUInt64) <<< (32 - k).toUInt64)) >>> 32) hl (by rw [toNat_shr64_32, e]; omega)
      refine ⟨by omega, ?_⟩
      rw [i2, toNat_shr64_32, UInt64.toNat_toUInt32, e]
      have h6 := Nat.div_add_mod (temp.toNat + (s.toNat + p.toNat * f.toNat) * 2 ^ (32 - k)) (2 ^ 32)
      generalize (temp.toNat + (s.toNat + p.toNat * f.toNat) * 2 ^ (32 - k)) / 2 ^ 32 = q at *
      generalize (temp.toNat + (s.toNat + p.toNat * f.toNat) * 2 ^ (32 - k)) % 2 ^ 32 = r at *
      have h7 : r + 2 ^ 32 * q = temp.toNat + (s.toNat + p.toNat * f.toNat) * 2 ^ (32 - k) := by omega
      calc r + 2 ^ 32 * (q + 2 ^ (32 - k) * (wordValue ss + f.toNat * wordValue ps))
          = (r + 2 ^ 32 * q) + 2 ^ 32 * (2 ^ (32 - k) * (wordValue ss + f.toNat * wordValue ps)) := by ring
        _ = _ := by rw [h7]; ring

theorem mask_toNat (k : Nat) (hk : k < 32) (w : UInt32) : (w &&& (((1 : UInt32) <<< k.toUInt32) - 1)).toNat = w.toNat % 2 ^ k := by
  have h1 : ((1 : UInt32) <<< k.toUInt32).toNat = 2 ^ k := by
    rw [toNat_shl _ _ hk, UInt32.toNat_one, Nat.one_mul]
    exact Nat.mod_eq_of_lt (Nat.pow_lt_pow_right (by norm_num) hk)
  have h2 : (((1 : UInt32) <<< k.toUInt32) - 1).toNat = 2 ^ k - 1 := by
    rw [UInt32.toNat_sub_of_le _ _ (by rw [UInt32.le_iff_toNat_le, h1, UInt32.toNat_one]; exact Nat.one_le_two_pow), h1, UInt32.toNat_one]
  rw [UInt32.toNat_and, h2, Nat.and_two_pow_sub_one_eq_mod]

theorem divBits_spec (inv : UInt32) (k : Nat) (hk : k < 32) (hk0 : 0 < k) (pp s : List UInt32) (hl : s.length = pp.length) (h0 : pp ≠ []) (hinv : inv * pp.headD 0 = -1)
    (hs : wordValue s < wordValue pp) :
    ∃ s' f, divBits inv k pp s = .ok s' ∧ s'.length = s.length ∧ wordValue s' * 2 ^ k = wordValue s + f * wordValue pp ∧ wordValue s' < wordValue pp := by
  cases pp with
  | nil => exact absurd rfl h0
  | cons p0 ps =>
    cases s with
    | nil => simp at hl
    | cons s0 ss =>
      simp only [List.length_cons, Nat.add_right_cancel_iff] at hl
      simp only [List.headD_cons] at hinv
      simp only [divBits]
      have hfv := mask_toNat k hk (inv * s0)
      have hm := mask_toNat k hk
      generalize ((1 : UInt32) <<< k.toUInt32) - 1 = mask at *
      have hf : ((inv * s0) &&& mask).toNat < 2 ^ k := by rw [hfv]; exact Nat.mod_lt _ (by positivity)
      have hdk : 2 ^ k ∣ 2 ^ 32 := Nat.pow_dvd_pow 2 (by omega)
      have hz : (s0.toNat + p0.toNat * ((inv * s0) &&& mask).toNat) % 2 ^ k = 0 := by
        have h1 : s0 + p0 * (inv * s0) = 0 := by grind
        have h2 := congrArg UInt32.toNat h1
        rw [UInt32.toNat_add, UInt32.toNat_mul, UInt32.toNat_zero, Nat.add_mod, Nat.mod_mod, ← Nat.add_mod] at h2
        have h3 : 2 ^ k ∣ s0.toNat + p0.toNat * (inv * s0).toNat := hdk.trans (Nat.dvd_of_mod_eq_zero h2)
        rw [hfv, Nat.add_mod, Nat.mul_mod, Nat.mod_mod, ← Nat.mul_mod, ← Nat.add_mod]
        exact Nat.mod_eq_zero_of_dvd h3
      generalize ((inv * s0) &&& mask) = f at *
      obtain ⟨m1, -⟩ := mulAdd64 s0 p0 f
      have m3 := mulAdd_small s0 p0 f k hf
      have hc : (s0 + p0 * f) &&& mask = 0 := by
        rw [← UInt32.toNat_inj, hm, UInt32.toNat_zero, UInt32.toNat_add, UInt32.toNat_mul, Nat.mod_mod_of_dvd _ hdk,
          Nat.add_mod, Nat.mod_mod_of_dvd _ hdk, ← Nat.add_mod]
        exact hz
      rw [if_pos (by rw [beq_iff_eq]; exact hc)]
      have ht : ((s0.toUInt64 + p0.toUInt64 * f.toUInt64) >>> k.toUInt64).toNat = (s0.toNat + p0.toNat * f.toNat) / 2 ^ k := by
        rw [toNat_shr64' _ _ (by omega), m1]
      have hpk : 0 < 2 ^ k := by positivity
      obtain ⟨d1, d2⟩ := divBitsLoop_spec k hk hk0 f hf ss ps _ hl (by
        rw [ht, Nat.div_lt_iff_lt_mul hpk]
        have : (2 ^ 32 - 1) * 2 ^ k < 2 ^ 32 * 2 ^ k := Nat.mul_lt_mul_of_pos_right (by norm_num) hpk
        omega)
      have hpow : 2 ^ (32 - k) * 2 ^ k = 2 ^ 32 := by rw [← Nat.pow_add]; congr 1; omega
      have hv : wordValue (divBitsLoop k f ((s0.toUInt64 + p0.toUInt64 * f.toUInt64) >>> k.toUInt64) ss ps) * 2 ^ k =
          wordValue (s0 :: ss) + f.toNat * wordValue (p0 :: ps) := by
        rw [d2, ht]
        simp only [wordValue]
        have h5 := Nat.div_mul_cancel (Nat.dvd_of_mod_eq_zero hz)
        rw [Nat.add_mul, h5]
        calc s0.toNat + p0.toNat * f.toNat + 2 ^ (32 - k) * (wordValue ss + f.toNat * wordValue ps) * 2 ^ k
            = s0.toNat + p0.toNat * f.toNat + (2 ^ (32 - k) * 2 ^ k) * (wordValue ss + f.toNat * wordValue ps) := by ring
          _ = _ := by rw [hpow]; ring
      refine ⟨_, f.toNat, rfl, by simp [d1], hv, ?_⟩
      have : f.toNat * wordValue (p0 :: ps) ≤ (2 ^ k - 1) * wordValue (p0 :: ps) := Nat.mul_le_mul_right _ (by omega)
      apply Nat.lt_of_mul_lt_mul_right (a := 2 ^ k)
      rw [hv]
      rw [Nat.sub_mul, Nat.one_mul] at this
      have h8 : wordValue (p0 :: ps) ≤ 2 ^ k * wordValue (p0 :: ps) := Nat.le_mul_of_pos_left _ hpk
      rw [Nat.mul_comm (wordValue (p0 :: ps))]
      omega

theorem unpackLoop_eq (ws : List UInt32) : ∀ (temp : UInt32) (i : Nat), i + ws.length = 8 → temp.toNat < 2 ^ (2 * i) → unpackLoop temp i ws = readLoop temp i ws := by
  induction ws with
  | nil => intro temp i _ _; rfl
  | cons w ws ih =>
    intro temp i hi ht
    simp only [List.length_cons] at hi
    simp only [unpackLoop, readLoop]
    congr 1
    · have h30 : temp.toNat < 2 ^ 30 := lt_of_lt_of_le ht (Nat.pow_le_pow_right (by norm_num) (by omega))
      have hm : temp &&& 0x3FFFFFFF = temp := by
        rw [← UInt32.toNat_inj, toNat_mask, Nat.mod_eq_of_lt h30]
      have hm' := congrArg UInt32.toNat hm
      rw [UInt32.toNat_and] at hm'
      rw [← UInt32.toNat_inj]
      simp only [UInt32.toNat_and, UInt32.toNat_or]
      rw [Nat.and_or_distrib_right, hm', Nat.or_comm]
    · apply ih _ _ (by omega)
      rw [toNat_shr _ _ (by omega), Nat.div_lt_iff_lt_mul (by positivity), ← Nat.pow_add, show 2 * (i + 1) + (30 - 2 * i) = 32 by omega]
      exact w.toNat_lt

/-! ### `bn_inverse` -/

theorem inverse_spec (x p : BN) (hx : x.length = 9) (hp : Modulus p) (hodd : limbValue p % 2 = 1) (hc : Nat.Coprime (limbValue x) (limbValue p)) :
    ∃ r, inverse x p = .ok r ∧ Normal r ∧ limbValue r < limbValue p ∧ limbValue r * limbValue x ≡ 1 [MOD limbValue p] := by
  obtain ⟨f1, f2, f3⟩ := fastMod_spec x p hx hp
  obtain ⟨m1, m2⟩ := mod_spec (fastMod x p) p f1 hp.normal f3
  have hhigh := hp.high
  have hlow := hp.low
  have hp1 : 1 < limbValue p := by omega
  have hxm : limbValue (mod (fastMod x p) p) = limbValue x % limbValue p := by
    rw [m2, ← f2, Nat.add_mul_mod_self_right]
  have hlt : limbValue (mod (fastMod x p) p) < limbValue p := by rw [hxm]; exact Nat.mod_lt _ (by omega)
  have hcop : Nat.Coprime (limbValue (mod (fastMod x p) p)) (limbValue p) := by
    rw [hxm, Nat.coprime_iff_gcd_eq_one, ← Nat.gcd_rec, Nat.gcd_comm]; exact hc
  obtain ⟨q1, q2⟩ := pack_spec p hp.normal hhigh
  obtain ⟨x1, x2⟩ := pack_spec _ m1 (by omega)
  generalize hX : mod (fastMod x p) p = X at *
  generalize hpp : pack p = pp at *
  have hne : pp ≠ [] := by intro h; rw [h] at q1; simp at q1
  have ou1 : Combo.first ⟨pp ++ [1], 8⟩ = limbValue p := by
    simp only [Combo.first]; rw [List.take_append_of_le_length (by omega), List.take_of_length_le (by omega), q2]
  have ou2 : Combo.second ⟨pp ++ [1], 8⟩ = 1 := by
    simp only [Combo.second]; rw [List.drop_append_of_le_length (by omega), List.drop_eq_nil_of_le (by omega)]; rfl
  have ev1 : Combo.first ⟨pack X ++ [0], 8⟩ = limbValue X := by
    simp only [Combo.first]; rw [List.take_append_of_le_length (by omega), List.take_of_length_le (by omega), x2]
  have ev2 : Combo.second ⟨pack X ++ [0], 8⟩ = 0 := by
    simp only [Combo.second]; rw [List.drop_append_of_le_length (by omega), List.drop_eq_nil_of_le (by omega)]; rfl
  have hX0 : limbValue X ≠ 0 := by
    intro h
    rw [h, Nat.coprime_zero_left] at hcop
    omega
  have hinv : Inv (limbValue p) (limbValue X) (if true then 1 else -1) ⟨pp ++ [1], 8⟩ ⟨pack X ++ [0], 8⟩ 0 := by
    refine ⟨⟨by simp [q1], by norm_num, le_refl _⟩, ⟨by simp [x1], by norm_num, le_refl _⟩, ?_, ?_, ?_, ?_, ?_, ?_, ?_, ?_⟩
    · unfold Top; rw [ou1]; simp only; omega
    · rw [ou1]; exact hodd
    · rw [ev1]; exact hX0
    · rw [ou1, ou2, ev2]; ring
    · rw [ou2, ev1]; simp
    · rw [ev2, ou1, ZMod.natCast_self]; simp
    · rw [ou1, ev1]; exact hcop.symm
    · rw [ou1, ev1, Nat.pow_zero, Nat.mul_one]
      calc limbValue p * limbValue X < 2 ^ 256 * 2 ^ 256 := Nat.mul_lt_mul'' hhigh (by omega)
        _ = 2 ^ 512 := by rw [← Nat.pow_add]
  obtain ⟨us, k, l1, l2, l3, l4, l5, l6⟩ := inverseLoop_spec (limbValue p) (limbValue X) hhigh hodd hp1 514 true _ _ 0 hinv (by rw [ou2])
    (by have := Nat.mod_lt (Combo.first ⟨pack X ++ [0], 8⟩) (show 0 < 2 by norm_num); omega)
  simp only [if_true] at l1
  have hp0 : (pp.headD 0).toNat % 2 = 1 := by
    cases pp with
    | nil => exact absurd rfl hne
    | cons a as =>
      simp only [List.headD_cons]
      rw [← q2, wordValue] at hodd
      omega
  obtain ⟨inv, w1, w2⟩ := wordInverse_ok _ hp0
  have hs : wordValue (us.a.drop 1).reverse = us.second := by rw [Combo.second, l4]
  obtain ⟨s1, g1, d1, d2, d3, d4⟩ := divWords_spec inv pp hne w2 (k / 32) (us.a.drop 1).reverse (by simp [l2.len, q1]) (by rw [hs, q2]; exact l5)
  have d2' : s1.length = pp.length := by rw [d2]; simp [l2.len, q1]
  obtain ⟨s2, g2, e1, e2, e3, e4⟩ : ∃ s2 g2, (if k % 32 = 0 then C.ok s1 else divBits inv (k % 32) pp s1) = .ok s2 ∧ s2.length = 8 ∧
      wordValue s2 * 2 ^ (k % 32) = wordValue s1 + g2 * wordValue pp ∧ wordValue s2 < wordValue pp := by
    by_cases hk : k % 32 = 0
    · rw [if_pos hk]
      exact ⟨s1, 0, rfl, by omega, by rw [hk]; simp, d4⟩
    · rw [if_neg hk]
      obtain ⟨s', f, b1, b2, b3, b4⟩ := divBits_spec inv (k % 32) (by omega) (by omega) pp s1 d2' hne w2 d4
      exact ⟨s', f, b1, by omega, b3, b4⟩
  obtain ⟨n1, n2⟩ := normal_readLoop s2 e2
  refine ⟨readLoop 0 0 s2, ?_, n1, by rw [n2, ← q2]; exact e4, ?_⟩
  · unfold inverse
    simp only [hpp, hX, l1, C.bind_ok]
    have : require (bit0 (pp.headD 0)) = .ok () := by rw [(bit0_iff _).mpr hp0]; rfl
    simp only [this, C.bind_ok, w1, d1]
    by_cases hk : k % 32 = 0
    · rw [if_pos hk] at e1 ⊢
      simp only [C.ok.injEq] at e1
      rw [← e1, unpackLoop_eq _ _ _ (by rw [e1]; simpa using e2) (by decide)]
    · rw [if_neg hk] at e1 ⊢
      simp only [e1, C.bind_ok]
      rw [unpackLoop_eq _ _ _ (by simpa using e2) (by decide)]
  · rw [n2, ← ZMod.natCast_eq_natCast_iff]
    have z1 := congrArg (Nat.cast (R := ZMod (limbValue p))) e3
    have z2 := congrArg (Nat.cast (R := ZMod (limbValue p))) d3
    rw [q2, hs] at *
    push_cast at z1 z2 ⊢
    rw [ZMod.natCast_self, mul_zero, add_zero] at z1 z2
    have hx2 : (limbValue X : ZMod (limbValue p)) = limbValue x := by rw [hxm, ZMod.natCast_mod]
    have hk : (2 : ZMod (limbValue p)) ^ k = 2 ^ (k % 32) * 2 ^ (32 * (k / 32)) := by rw [← pow_add, Nat.mod_add_div]
    have hu : IsUnit ((2 : ZMod (limbValue p)) ^ k) := by
      have : IsUnit ((2 : Nat) : ZMod (limbValue p)) := by
        rw [ZMod.isUnit_iff_coprime, Nat.coprime_two_left, Nat.odd_iff]; exact hodd
      push_cast at this
      exact this.pow k
    apply hu.mul_right_cancel
    rw [hx2] at l6
    rw [one_mul]
    calc (wordValue s2 : ZMod (limbValue p)) * limbValue x * 2 ^ k
        = limbValue x * (wordValue s2 * 2 ^ (k % 32) * 2 ^ (32 * (k / 32))) := by rw [hk]; ring
      _ = 2 ^ k := by rw [z1, z2, l6]

end BN
end UB
