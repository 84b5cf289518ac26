import Verif.Model.Bech32
import Verif.Spec.Bech32
import Verif.Lemmas.Bytes

namespace UB
open Spec

theorem bitsOf_zero (n : Nat) : bitsOf 0 n = [] := rfl

theorem bitsOf_succ (w n : Nat) : bitsOf (w + 1) n = n.testBit w :: bitsOf w n := by
  simp [bitsOf, List.range_succ]

@[simp] theorem length_bitsOf (w n : Nat) : (bitsOf w n).length = w := by simp [bitsOf]

theorem bitsOf_of_zero (w : Nat) : bitsOf w 0 = List.replicate w false := by
  induction w with
  | zero => rfl
  | succ w ih => rw [bitsOf_succ, ih, Nat.zero_testBit, List.replicate_succ]

theorem bitsOf_append (a b n : Nat) : bitsOf (a + b) n = bitsOf a (n >>> b) ++ bitsOf b n := by
  induction a with
  | zero => simp [bitsOf_zero]
  | succ a ih =>
    rw [show a + 1 + b = (a + b) + 1 by omega, bitsOf_succ, ih, bitsOf_succ, Nat.testBit_shiftRight, Nat.add_comm b a]
    rfl

theorem bitsOf_congr (w n m : Nat) (h : ∀ i < w, n.testBit i = m.testBit i) : bitsOf w n = bitsOf w m := by
  simp only [bitsOf]
  apply List.map_congr_left
  intro i hi
  simp only [List.mem_reverse, List.mem_range] at hi
  exact h i hi

theorem bitsOf_mod (w k n : Nat) (h : w ≤ k) : bitsOf w (n % 2 ^ k) = bitsOf w n := by
  apply bitsOf_congr
  intro i hi
  rw [Nat.testBit_mod_two_pow]
  simp [show i < k by omega]

theorem bitsOf_and (w k n : Nat) (h : w ≤ k) : bitsOf w (n &&& (2 ^ k - 1)) = bitsOf w n := by
  rw [Nat.and_two_pow_sub_one_eq_mod, bitsOf_mod w k n h]

theorem bitsOf_shl_or (w k v x : Nat) (h : x < 2 ^ k) : bitsOf (w + k) ((v <<< k) ||| x) = bitsOf w v ++ bitsOf k x := by
  rw [bitsOf_append]
  congr 1
  · rw [Nat.shiftRight_or_distrib, Nat.shiftRight_eq_zero x k h, Nat.or_zero, Nat.shiftLeft_shiftRight]
  · apply bitsOf_congr
    intro i hi
    rw [Nat.testBit_or, Nat.testBit_shiftLeft]
    simp [show ¬ k ≤ i by omega]

theorem bitsOf_shl (w k v : Nat) : bitsOf (w + k) (v <<< k) = bitsOf w v ++ List.replicate k false := by
  have := bitsOf_shl_or w k v 0 (Nat.two_pow_pos k)
  rw [Nat.or_zero] at this
  rw [this]
  rw [bitsOf_of_zero]

theorem bitsOf_eq_false (w n : Nat) : bitsOf w n = List.replicate w false ↔ n % 2 ^ w = 0 := by
  constructor
  · intro h
    apply Nat.eq_of_testBit_eq
    intro i
    rw [Nat.zero_testBit, Nat.testBit_mod_two_pow]
    by_cases hi : i < w
    · have : n.testBit i ∈ bitsOf w n := by
        simp only [bitsOf, List.mem_map, List.mem_reverse, List.mem_range]
        exact ⟨i, hi, rfl⟩
      rw [h] at this
      simp [List.eq_of_mem_replicate this]
    · simp [hi]
  · intro h
    rw [← bitsOf_mod w w n (Nat.le_refl _), h, bitsOf_of_zero]

theorem bitsOf_inj (w n m : Nat) (hn : n < 2 ^ w) (hm : m < 2 ^ w) (h : bitsOf w n = bitsOf w m) : n = m := by
  apply Nat.eq_of_testBit_eq
  intro i
  by_cases hi : i < w
  · simp only [bitsOf] at h
    have := List.map_inj_left.mp h i (by simp [hi])
    exact this
  · rw [Nat.testBit_lt_two_pow (Nat.lt_of_lt_of_le hn (Nat.pow_le_pow_right (by decide) (by omega))),
      Nat.testBit_lt_two_pow (Nat.lt_of_lt_of_le hm (Nat.pow_le_pow_right (by decide) (by omega)))]

/-- Groups of `w` bits. -/
def groups (w : Nat) (l : Bytes) : List Bool := l.flatMap fun b => bitsOf w b.toNat

theorem groups_append (w : Nat) (a b : Bytes) : groups w (a ++ b) = groups w a ++ groups w b := by simp [groups]

theorem length_groups (w : Nat) (l : Bytes) : (groups w l).length = l.length * w := by
  induction l with
  | nil => simp [groups]
  | cons x l ih =>
    simp only [groups, List.flatMap_cons, List.length_append, length_bitsOf, List.length_cons] at ih ⊢
    rw [ih, Nat.add_mul]; omega

theorem groups_inj (w : Nat) (a b : Bytes) (ha : ∀ x ∈ a, x.toNat < 2 ^ w) (hb : ∀ x ∈ b, x.toNat < 2 ^ w)
    (hl : a.length = b.length) (h : groups w a = groups w b) : a = b := by
  induction a generalizing b with
  | nil => cases b <;> simp_all
  | cons x a ih =>
    cases b with
    | nil => simp at hl
    | cons y b =>
      simp only [groups, List.flatMap_cons] at h
      obtain ⟨h1, h2⟩ := List.append_inj h (by simp)
      have e := bitsOf_inj w _ _ (ha x (by simp)) (hb y (by simp)) h1
      rw [UInt8.toNat_inj.mp e, ih b (fun z hz => ha z (by simp [hz])) (fun z hz => hb z (by simp [hz])) (by simpa using hl) h2]

theorem shiftConst (n : Nat) (h : n < 32) : (UInt32.ofNat n).toNat % 32 = n := by
  rw [UInt32.toNat_ofNat', Nat.mod_eq_of_lt (show n < 2 ^ 32 by omega), Nat.mod_eq_of_lt h]

theorem maxv_toNat (ob : Nat) (h1 : 1 ≤ ob) (h : ob ≤ 8) : (((1 : UInt32) <<< UInt32.ofNat ob) - 1).toNat = 2 ^ ob - 1 := by
  have key : ∀ ob < 9, (((1 : UInt32) <<< UInt32.ofNat ob) - 1).toNat = 2 ^ ob - 1 := by decide +kernel
  exact key ob (by omega)

theorem emitted_toNat (ob bits : Nat) (val : UInt32) (h1 : 1 ≤ ob) (h : ob ≤ 8) (hb : bits < 32) :
    (((val >>> UInt32.ofNat bits) &&& ((1 <<< UInt32.ofNat ob) - 1)).toUInt8).toNat = (val.toNat >>> bits) % 2 ^ ob := by
  rw [UInt32.toNat_toUInt8, UInt32.toNat_and, maxv_toNat ob h1 h, UInt32.toNat_shiftRight, shiftConst bits hb,
    Nat.and_two_pow_sub_one_eq_mod]
  apply Nat.mod_eq_of_lt
  have : (val.toNat >>> bits) % 2 ^ ob < 2 ^ ob := Nat.mod_lt _ (Nat.two_pow_pos ob)
  have : 2 ^ ob ≤ 2 ^ 8 := Nat.pow_le_pow_right (by decide) h
  omega

theorem convertEmit_spec (ob : Nat) (val : UInt32) (h1 : 1 ≤ ob) (h8 : ob ≤ 8) (fuel bits : Nat) (out : Bytes) (hf : bits ≤ fuel)
    (hb : bits ≤ 32) :
    ∃ em, (convertEmit ob val fuel bits out).2 = out ++ em ∧ (∀ x ∈ em, x.toNat < 2 ^ ob) ∧
      (convertEmit ob val fuel bits out).1 < ob ∧
      groups ob em ++ bitsOf (convertEmit ob val fuel bits out).1 val.toNat = bitsOf bits val.toNat := by
  induction fuel generalizing bits out with
  | zero =>
    refine ⟨[], by simp [convertEmit], by simp, by simp [convertEmit]; omega, by simp [convertEmit, groups]⟩
  | succ fuel ih =>
    rw [convertEmit]
    by_cases hge : bits ≥ ob
    · rw [if_pos hge]
      simp only
      obtain ⟨em, e1, e2, e3, e4⟩ := ih (bits - ob)
        (out ++ [((val >>> UInt32.ofNat (bits - ob)) &&& ((1 <<< UInt32.ofNat ob) - 1)).toUInt8]) (by omega) (by omega)
      have ev := emitted_toNat ob (bits - ob) val h1 h8 (by omega)
      refine ⟨((val >>> UInt32.ofNat (bits - ob)) &&& ((1 <<< UInt32.ofNat ob) - 1)).toUInt8 :: em, ?_, ?_, e3, ?_⟩
      · rw [e1]; simp
      · intro x hx
        rcases List.mem_cons.mp hx with rfl | hx
        · rw [ev]; exact Nat.mod_lt _ (Nat.two_pow_pos ob)
        · exact e2 x hx
      · simp only [groups, List.flatMap_cons, List.append_assoc] at e4 ⊢
        rw [e4, ev, bitsOf_mod ob ob _ (Nat.le_refl _), ← bitsOf_append]
        congr 1
        omega
    · rw [if_neg hge]
      exact ⟨[], by simp, by simp, by omega, by simp [groups]⟩

theorem convertLoop_spec (ob ib : Nat) (h1 : 1 ≤ ob) (h8 : ob ≤ 8) (hi : ib ≤ 8) (xs : Bytes) (hx : ∀ x ∈ xs, x.toNat < 2 ^ ib)
    (val : UInt32) (bits : Nat) (out : Bytes) (hb : bits < ob) :
    ∃ (em : Bytes) (val' : UInt32) (bits' : Nat), convertLoop ob ib xs val bits out = (val', bits', out ++ em) ∧
      (∀ x ∈ em, x.toNat < 2 ^ ob) ∧ bits' < ob ∧
      groups ob em ++ bitsOf bits' val'.toNat = bitsOf bits val.toNat ++ groups ib xs := by
  induction xs generalizing val bits out with
  | nil => exact ⟨[], val, bits, by simp [convertLoop], by simp, hb, by simp [groups]⟩
  | cons x xs ih =>
    rw [convertLoop]
    simp only
    let v2 : UInt32 := (val <<< UInt32.ofNat ib) ||| x.toUInt32
    have hv2 : bitsOf (bits + ib) v2.toNat = bitsOf bits val.toNat ++ bitsOf ib x.toNat := by
      have e : v2.toNat = ((val.toNat <<< ib) % 2 ^ 32) ||| x.toNat := by
        show ((val <<< UInt32.ofNat ib) ||| x.toUInt32).toNat = _
        rw [UInt32.toNat_or, UInt32.toNat_shiftLeft, shiftConst ib (by omega), UInt8.toNat_toUInt32]
      rw [e, ← bitsOf_shl_or bits ib val.toNat x.toNat (hx x (by simp))]
      apply bitsOf_congr
      intro i hi'
      rw [Nat.testBit_or, Nat.testBit_or, Nat.testBit_mod_two_pow]
      simp [show i < 32 by omega]
    obtain ⟨em, e1, e2, e3, e4⟩ := convertEmit_spec ob v2 h1 h8 (bits + ib) (bits + ib) out (Nat.le_refl _) (by omega)
    obtain ⟨em', val', bits', f1, f2, f3, f4⟩ := ih (fun y hy => hx y (by simp [hy])) v2
      (convertEmit ob v2 (bits + ib) (bits + ib) out).1 (out ++ em) e3
    refine ⟨em ++ em', val', bits', ?_, ?_, f3, ?_⟩
    · show convertLoop ob ib xs v2 (convertEmit ob v2 (bits + ib) (bits + ib) out).1 (convertEmit ob v2 (bits + ib) (bits + ib) out).2 = _
      rw [e1, f1, List.append_assoc]
    · intro y hy
      rcases List.mem_append.mp hy with hy | hy
      · exact e2 y hy
      · exact f2 y hy
    · rw [groups_append, List.append_assoc, f4, ← List.append_assoc, e4, hv2]
      simp [groups]

theorem last_toNat (ob bits : Nat) (val : UInt32) (h1 : 1 ≤ ob) (h : ob ≤ 8) :
    ((val <<< UInt32.ofNat (ob - bits)) &&& ((1 <<< UInt32.ofNat ob) - 1)).toNat = (val.toNat <<< (ob - bits)) % 2 ^ ob := by
  rw [UInt32.toNat_and, maxv_toNat ob h1 h, UInt32.toNat_shiftLeft, shiftConst _ (by omega), Nat.and_two_pow_sub_one_eq_mod]
  exact Nat.mod_mod_of_dvd _ (Nat.pow_dvd_pow 2 (by omega))

/-- With padding: the groups are the input bits followed by fewer than `ob` zero bits. -/
theorem convertBits_pad (ob ib : Nat) (h1 : 1 ≤ ob) (h8 : ob ≤ 8) (hi : ib ≤ 8) (xs : Bytes) (hx : ∀ x ∈ xs, x.toNat < 2 ^ ib) :
    ∃ data, convertBits ob xs ib true = (true, data) ∧ (∀ x ∈ data, x.toNat < 2 ^ ob) ∧
      ∃ pad < ob, groups ob data = groups ib xs ++ List.replicate pad false := by
  obtain ⟨em, val', bits', e1, e2, e3, e4⟩ := convertLoop_spec ob ib h1 h8 hi xs hx 0 0 [] (by omega)
  simp only [List.nil_append, bitsOf_zero] at e1 e4
  have hl := last_toNat ob bits' val' h1 h8
  unfold convertBits
  simp only [e1, if_true]
  by_cases hb : bits' ≠ 0
  · rw [if_pos hb]
    refine ⟨_, rfl, ?_, ob - bits', by omega, ?_⟩
    · intro x hxm
      rcases List.mem_append.mp hxm with hxm | hxm
      · exact e2 x hxm
      · simp only [List.mem_singleton] at hxm
        subst hxm
        rw [UInt32.toNat_toUInt8, hl]
        have : (val'.toNat <<< (ob - bits')) % 2 ^ ob < 2 ^ ob := Nat.mod_lt _ (Nat.two_pow_pos ob)
        exact Nat.lt_of_le_of_lt (Nat.mod_le _ _) this
    · rw [groups_append, ← e4, List.append_assoc]
      congr 1
      simp only [groups, List.flatMap_cons, List.flatMap_nil, List.append_nil, UInt32.toNat_toUInt8, hl]
      rw [bitsOf_mod ob 8 _ h8, bitsOf_mod ob ob _ (Nat.le_refl _)]
      have := bitsOf_shl bits' (ob - bits') val'.toNat
      rwa [show bits' + (ob - bits') = ob by omega] at this
  · rw [if_neg hb]
    refine ⟨em, rfl, e2, 0, by omega, ?_⟩
    have hb0 : bits' = 0 := by omega
    rw [hb0, bitsOf_zero, List.append_nil] at e4
    simp [e4]

/-- Without padding: success means that what is left over is fewer than `ib` zero bits. -/
theorem convertBits_nopad (ob ib : Nat) (h1 : 1 ≤ ob) (h8 : ob ≤ 8) (hi : ib ≤ 8) (xs : Bytes) (hx : ∀ x ∈ xs, x.toNat < 2 ^ ib) :
    ∃ out pend, (convertBits ob xs ib false).2 = out ∧ (∀ x ∈ out, x.toNat < 2 ^ ob) ∧ pend.length < ob ∧
      groups ib xs = groups ob out ++ pend ∧
      ((convertBits ob xs ib false).1 = true ↔ pend.length < ib ∧ pend = List.replicate pend.length false) := by
  obtain ⟨em, val', bits', e1, e2, e3, e4⟩ := convertLoop_spec ob ib h1 h8 hi xs hx 0 0 [] (by omega)
  simp only [List.nil_append, bitsOf_zero] at e1 e4
  have hl := last_toNat ob bits' val' h1 h8
  refine ⟨em, bitsOf bits' val'.toNat, ?_, e2, by rw [length_bitsOf]; exact e3, e4.symm, ?_⟩
  · unfold convertBits
    simp only [e1, Bool.false_eq_true, if_false]
    split <;> rfl
  · rw [length_bitsOf, bitsOf_eq_false]
    have hlast : ((val' <<< UInt32.ofNat (ob - bits')) &&& ((1 <<< UInt32.ofNat ob) - 1)) = 0 ↔ val'.toNat % 2 ^ bits' = 0 := by
      rw [← UInt32.toNat_inj, hl]
      show _ = 0 ↔ _
      rw [← bitsOf_eq_false, ← bitsOf_eq_false]
      have h2 := bitsOf_shl bits' (ob - bits') val'.toNat
      rw [show bits' + (ob - bits') = ob by omega] at h2
      rw [h2]
      have h3 : List.replicate ob false = List.replicate bits' false ++ List.replicate (ob - bits') false := by
        rw [List.replicate_append_replicate]; congr 1; omega
      rw [h3]
      exact ⟨fun h => (List.append_inj h (by simp)).1, fun h => by rw [h]⟩
    unfold convertBits
    simp only [e1, Bool.false_eq_true, if_false]
    split
    · rename_i hc
      simp only [Bool.false_eq_true, false_iff]
      rintro ⟨h2, h3⟩
      rcases hc with hc | hc
      · exact hc (hlast.mpr h3)
      · omega
    · rename_i hc
      rw [not_or, Decidable.not_not] at hc
      simp only [true_iff]
      exact ⟨by omega, hlast.mp hc.1⟩

theorem groups5_eq (l : Bytes) : groups5 l = groups 5 l := rfl
theorem groups8_eq (l : Bytes) : groups8 l = groups 8 l := rfl

end UB
