import Verif.Lemmas.StringFrom
import Verif.Model.Descriptor
import Verif.Spec.Descriptor
import Verif.Lemmas.Bech32
import Verif.Lemmas.Mnemonic

/-
C59: descriptor checksums.
-/

namespace UB
open Spec

/-! ### The step is linear and loses nothing -/

/-- What the five top bits contribute. -/
def descTop (t : Nat) : Nat :=
  msk (t.testBit 0) 0xf5dee51989 ^^^ msk (t.testBit 1) 0xa9fdca3312 ^^^ msk (t.testBit 2) 0x1bab10e32d ^^^ msk (t.testBit 3) 0x3706b1677a
    ^^^ msk (t.testBit 4) 0x644d626ffd

/-- One step feeding the symbol zero. -/
def descZ (c : Nat) : Nat := ((c &&& 0x7ffffffff) <<< 5) ^^^ descTop (c >>> 35)

theorem descStep_eq (c v : Nat) : Spec.descStep c v = descZ c ^^^ v := by
  simp only [Spec.descStep, descGen, List.zipIdx_cons, List.zipIdx_nil, List.foldl_cons, List.foldl_nil, ite_xor, descZ, descTop]
  simp only [Nat.xor_assoc, Nat.zero_add, Nat.reduceAdd]
  congr 1
  rw [Nat.xor_comm v]
  simp only [Nat.xor_assoc]

theorem descTop_xor (a b : Nat) : descTop (a ^^^ b) = descTop a ^^^ descTop b := by
  simp only [descTop, Nat.testBit_xor, msk_xor]
  ac_rfl

theorem descZ_xor (a b : Nat) : descZ (a ^^^ b) = descZ a ^^^ descZ b := by
  simp only [descZ, Nat.shiftRight_xor_distrib, descTop_xor, Nat.and_xor_distrib_right, Nat.shiftLeft_xor_distrib]
  ac_rfl

theorem descZ_zero : descZ 0 = 0 := by decide

theorem descTop_table : ∀ t < 32, descTop t < 2 ^ 40 ∧ (descTop t % 32 = 0 → t = 0) := by decide +kernel

theorem descZ_form (c : Nat) : descZ c = c % 2 ^ 35 * 32 ^^^ descTop (c >>> 35) := by
  unfold descZ
  rw [show 0x7ffffffff = 2 ^ 35 - 1 from rfl, Nat.and_two_pow_sub_one_eq_mod, Nat.shiftLeft_eq]

theorem descZ_lt (c : Nat) (h : c < 2 ^ 40) : descZ c < 2 ^ 40 := by
  rw [descZ_form]
  refine Nat.xor_lt_two_pow (by omega) (descTop_table _ ?_).1
  rw [Nat.shiftRight_eq_div_pow]; omega

theorem descZ_ne (c : Nat) (h : c < 2 ^ 40) (h0 : c ≠ 0) : descZ c ≠ 0 := by
  intro hz
  rw [descZ_form] at hz
  have e : c % 2 ^ 35 * 32 = descTop (c >>> 35) := by
    have := congrArg (· ^^^ descTop (c >>> 35)) hz
    simpa [Nat.xor_assoc] using this
  have ht : c >>> 35 < 32 := by rw [Nat.shiftRight_eq_div_pow]; omega
  have h1 := (descTop_table _ ht).2 (by rw [← e]; omega)
  rw [h1, show descTop 0 = 0 from rfl] at e
  rw [Nat.shiftRight_eq_div_pow] at h1
  omega

/-- A small state is only shifted. -/
theorem descZ_small (c : Nat) (h : c < 2 ^ 35) : descZ c = c * 32 := by
  rw [descZ_form, Nat.mod_eq_of_lt h, Nat.shiftRight_eq_div_pow, Nat.div_eq_of_lt h, show descTop 0 = 0 from rfl, Nat.xor_zero]

def runD (c : Nat) (vs : List Nat) : Nat := vs.foldl Spec.descStep c

theorem runD_nil (c : Nat) : runD c [] = c := rfl
theorem runD_cons (c v : Nat) (vs : List Nat) : runD c (v :: vs) = runD (descZ c ^^^ v) vs := by simp [runD, descStep_eq]
theorem runD_append (c : Nat) (a b : List Nat) : runD c (a ++ b) = runD (runD c a) b := by simp [runD]

theorem runD_xor (vs ws : List Nat) (h : vs.length = ws.length) (c d : Nat) :
    runD (c ^^^ d) (List.zipWith (· ^^^ ·) vs ws) = runD c vs ^^^ runD d ws := by
  induction vs generalizing ws c d with
  | nil => cases ws <;> simp_all [runD]
  | cons v vs ih =>
    cases ws with
    | nil => simp at h
    | cons w ws =>
      simp only [List.zipWith_cons_cons, runD_cons]
      rw [← ih ws (by simpa using h)]
      congr 1
      rw [descZ_xor]
      ac_rfl

theorem runD_lt (vs : List Nat) (hv : ∀ v ∈ vs, v < 32) (c : Nat) (h : c < 2 ^ 40) : runD c vs < 2 ^ 40 := by
  induction vs generalizing c with
  | nil => exact h
  | cons v vs ih =>
    rw [runD_cons]
    exact ih (fun x hx => hv x (by simp [hx])) _ (Nat.xor_lt_two_pow (descZ_lt c h) (Nat.lt_trans (hv v (by simp)) (by decide)))

/-- Equal symbols keep states apart. -/
theorem runD_same (vs : List Nat) (hv : ∀ v ∈ vs, v < 32) (c d : Nat) (hc : c < 2 ^ 40) (hd : d < 2 ^ 40) (h : c ≠ d) : runD c vs ≠ runD d vs := by
  induction vs generalizing c d with
  | nil => exact h
  | cons v vs ih =>
    rw [runD_cons, runD_cons]
    have hv32 := hv v (by simp)
    refine ih (fun x hx => hv x (by simp [hx])) _ _ (Nat.xor_lt_two_pow (descZ_lt c hc) (Nat.lt_trans hv32 (by decide)))
      (Nat.xor_lt_two_pow (descZ_lt d hd) (Nat.lt_trans hv32 (by decide))) ?_
    intro e
    have e2 : descZ c = descZ d := by
      have := congrArg (· ^^^ v) e
      simpa [Nat.xor_assoc] using this
    have e3 : descZ (c ^^^ d) = 0 := by rw [descZ_xor, e2, Nat.xor_self]
    refine descZ_ne (c ^^^ d) (Nat.xor_lt_two_pow hc hd) ?_ e3
    intro hz
    apply h
    have := congrArg (· ^^^ d) hz
    simpa [Nat.xor_assoc] using this

/-- Up to eight symbols are the digits of the state. -/
theorem runD_digits (vs : List Nat) (hv : ∀ v ∈ vs, v < 32) (k : Nat) (hk : k + vs.length ≤ 8) (c : Nat) (hc : c < 32 ^ k) :
    runD c vs = vs.foldl (fun n v => 32 * n + v) c := by
  induction vs generalizing k c with
  | nil => rfl
  | cons v vs ih =>
    have hv32 := hv v (by simp)
    rw [List.length_cons] at hk
    have h35 : c < 2 ^ 35 := Nat.lt_of_lt_of_le hc (by
      rw [show (2 : Nat) ^ 35 = 32 ^ 7 from rfl]
      exact Nat.pow_le_pow_right (by decide) (by omega))
    rw [runD_cons, List.foldl_cons, descZ_small c h35, show c * 32 = c * 2 ^ 5 from rfl, xor_add c v 5 (by omega), show c * 2 ^ 5 + v = 32 * c + v by omega]
    refine ih (fun x hx => hv x (by simp [hx])) (k + 1) (by omega) _ ?_
    rw [Nat.pow_succ]
    omega

theorem digits_zero (vs : List Nat) (c : Nat) (h : vs.foldl (fun n v => 32 * n + v) c = 0) : c = 0 ∧ ∀ v ∈ vs, v = 0 := by
  induction vs generalizing c with
  | nil => exact ⟨h, by simp⟩
  | cons v vs ih =>
    rw [List.foldl_cons] at h
    obtain ⟨h1, h2⟩ := ih _ h
    refine ⟨by omega, ?_⟩
    intro x hx
    rcases List.mem_cons.mp hx with rfl | hx
    · omega
    · exact h2 x hx

theorem zip_zero {xs ys : List Nat} (h : xs.length = ys.length) (hz : ∀ v ∈ List.zipWith (· ^^^ ·) xs ys, v = 0) : xs = ys := by
  induction xs generalizing ys with
  | nil => cases ys <;> simp_all
  | cons x xs ih =>
    cases ys with
    | nil => simp at h
    | cons y ys =>
      rw [List.zipWith_cons_cons] at hz
      have h1 := hz (x ^^^ y) (by simp)
      have h2 := ih (by simpa using h) fun v hv => hz v (by simp [hv])
      have : x = y := by
        have := congrArg (· ^^^ y) h1
        simpa [Nat.xor_assoc] using this
      rw [this, h2]

/-- A change within eight symbols shows. -/
theorem runD_burst (s x y t : List Nat) (hl : x.length = y.length) (h8 : x.length ≤ 8) (hne : x ≠ y) (hs : ∀ v ∈ s, v < 32) (hx : ∀ v ∈ x, v < 32)
    (hy : ∀ v ∈ y, v < 32) (ht : ∀ v ∈ t, v < 32) : runD 1 (s ++ x ++ t) ≠ runD 1 (s ++ y ++ t) := by
  rw [runD_append, runD_append, runD_append, runD_append]
  have h1 := runD_lt s hs 1 (by decide)
  refine runD_same t ht _ _ (runD_lt x hx _ h1) (runD_lt y hy _ h1) ?_
  intro e
  have h2 := runD_xor x y hl (runD 1 s) (runD 1 s)
  rw [e, Nat.xor_self, Nat.xor_self, runD_digits _ _ 0 (by simp; omega) 0 (by decide)] at h2
  · exact hne (zip_zero hl (digits_zero _ _ h2).2)
  · intro v hv
    rw [List.mem_iff_getElem] at hv
    obtain ⟨i, hi, rfl⟩ := hv
    rw [List.getElem_zipWith]
    exact Nat.xor_lt_two_pow (n := 5) (hx _ (List.getElem_mem _)) (hy _ (List.getElem_mem _))

/-! ### Symbols -/

theorem descExpand_lt : ∀ l : List Nat, (∀ a ∈ l, a < 96) → ∀ v ∈ descExpand l, v < 32
  | a :: b :: c :: l, h => by
    have ha := h a (by simp)
    have hb := h b (by simp)
    have hc := h c (by simp)
    have ih := descExpand_lt l fun x hx => h x (by simp [hx])
    intro v hv
    rw [descExpand, List.mem_append] at hv
    rcases hv with hv | hv
    · simp only [List.mem_cons, List.not_mem_nil, or_false] at hv
      omega
    · exact ih v hv
  | [a, b], h => by
    have ha := h a (by simp)
    have hb := h b (by simp)
    intro v hv
    simp only [descExpand, List.mem_cons, List.not_mem_nil, or_false] at hv
    omega
  | [a], h => by
    have ha := h a (by simp)
    intro v hv
    simp only [descExpand, List.mem_cons, List.not_mem_nil, or_false] at hv
    omega
  | [], _ => by intro v hv; cases hv

theorem descExpand_append (k : Nat) : ∀ (u l : List Nat), u.length = 3 * k → descExpand (u ++ l) = descExpand u ++ descExpand l := by
  induction k with
  | zero => intro u l h; rw [List.length_eq_zero_iff.mp h]; rfl
  | succ k ih =>
    intro u l h
    match u, h with
    | a :: b :: c :: u, h =>
      rw [List.cons_append, List.cons_append, List.cons_append, descExpand, descExpand, ih u l (by simp at h; omega), List.append_assoc]

theorem descExpand_length : ∀ l : List Nat, (descExpand l).length = l.length + (l.length + 2) / 3
  | a :: b :: c :: l => by
    rw [descExpand, List.length_append, descExpand_length l]
    simp only [List.length_cons, List.length_nil]
    omega
  | [a, b] => by simp [descExpand]
  | [a] => by simp [descExpand]
  | [] => rfl

theorem descExpand_inj : ∀ (x y : List Nat), x.length = y.length → (∀ a ∈ x, a < 96) → (∀ a ∈ y, a < 96) → descExpand x = descExpand y → x = y
  | a :: b :: c :: l, y, hl, hx, hy, h => by
    match y, hl with
    | a' :: b' :: c' :: l', hl =>
      rw [descExpand, descExpand] at h
      obtain ⟨h1, h2⟩ := List.append_inj h rfl
      have ih := descExpand_inj l l' (by simpa using hl) (fun z hz => hx z (by simp [hz])) (fun z hz => hy z (by simp [hz])) h2
      simp only [List.cons.injEq, and_true] at h1
      have := hx a (by simp)
      have := hx b (by simp)
      have := hx c (by simp)
      have := hy a' (by simp)
      have := hy b' (by simp)
      have := hy c' (by simp)
      rw [ih, show a = a' by omega, show b = b' by omega, show c = c' by omega]
  | [a, b], y, hl, hx, hy, h => by
    match y, hl with
    | [a', b'], _ =>
      simp only [descExpand, List.cons.injEq, and_true] at h
      have := hx a (by simp)
      have := hx b (by simp)
      have := hy a' (by simp)
      have := hy b' (by simp)
      rw [show a = a' by omega, show b = b' by omega]
  | [a], y, hl, hx, hy, h => by
    match y, hl with
    | [a'], _ =>
      simp only [descExpand, List.cons.injEq, and_true] at h
      rw [show a = a' by omega]
  | [], y, hl, _, _, _ => by rw [List.length_eq_zero_iff.mp hl.symm]

/-- A change within four characters gives other numbers. -/
theorem desc_burst (u x y v : List Nat) (hl : x.length = y.length) (h4 : x.length ≤ 4) (hne : x ≠ y) (hu : ∀ a ∈ u, a < 96) (hx : ∀ a ∈ x, a < 96)
    (hy : ∀ a ∈ y, a < 96) (hv : ∀ a ∈ v, a < 96) :
    runD 1 (descExpand (u ++ x ++ v) ++ List.replicate 8 0) ≠ runD 1 (descExpand (u ++ y ++ v) ++ List.replicate 8 0) := by
  have hr : (u.drop (3 * (u.length / 3))).length < 3 := by rw [List.length_drop]; omega
  have hu0 : (u.take (3 * (u.length / 3))).length = 3 * (u.length / 3) := by rw [List.length_take]; omega
  have hu1 : ∀ a ∈ u.drop (3 * (u.length / 3)), a < 96 := fun a ha => hu a (List.mem_of_mem_drop ha)
  have hu0' : ∀ a ∈ u.take (3 * (u.length / 3)), a < 96 := fun a ha => hu a (List.mem_of_mem_take ha)
  rw [← List.take_append_drop (3 * (u.length / 3)) u]
  generalize u.take (3 * (u.length / 3)) = u0 at *
  generalize u.drop (3 * (u.length / 3)) = u1 at *
  rw [List.append_assoc u0, List.append_assoc u0, List.append_assoc u0, List.append_assoc u0, descExpand_append _ u0 _ hu0, descExpand_append _ u0 _ hu0]
  have key : ∀ z : List Nat, z.length = x.length → (∀ a ∈ z, a < 96) → ∃ w : List Nat, w = u1 ++ z ++ v.take (6 - (u1 ++ z).length) ∧ (∀ a ∈ w, a < 96) ∧
      (w.length = 6 ∨ w.length ≤ 6 ∧ v.drop (6 - (u1 ++ z).length) = []) ∧
      descExpand (u1 ++ z ++ v) = descExpand w ++ descExpand (v.drop (6 - (u1 ++ z).length)) := by
    intro z hz hz96
    have hlen : (u1 ++ z ++ v.take (6 - (u1 ++ z).length)).length = 6 ∨
        (u1 ++ z ++ v.take (6 - (u1 ++ z).length)).length ≤ 6 ∧ v.drop (6 - (u1 ++ z).length) = [] := by
      rw [List.drop_eq_nil_iff]
      simp only [List.length_append, List.length_take]
      omega
    refine ⟨_, rfl, ?_, hlen, ?_⟩
    · intro a ha
      rw [List.mem_append, List.mem_append] at ha
      rcases ha with (ha | ha) | ha
      · exact hu1 a ha
      · exact hz96 a ha
      · exact hv a (List.mem_of_mem_take ha)
    · rcases hlen with h6 | ⟨h6, hnil⟩
      · rw [← descExpand_append 2 _ _ h6, List.append_assoc _ (v.take _), List.take_append_drop]
      · rw [hnil]
        have : v.take (6 - (u1 ++ z).length) = v := List.take_of_length_le (List.drop_eq_nil_iff.mp hnil)
        rw [this, descExpand, List.append_nil]
  obtain ⟨wx, ex, wx96, wx6, hwx⟩ := key x rfl hx
  obtain ⟨wy, ey, wy96, wy6, hwy⟩ := key y hl.symm hy
  have hsame : (u1 ++ y).length = (u1 ++ x).length := by simp [hl]
  have hwl : wx.length = wy.length := by
    rw [ex, ey, hsame, List.length_append, List.length_append (as := u1 ++ y), hsame]
  rw [hwx, hwy, hsame, List.append_assoc, List.append_assoc, List.append_assoc, List.append_assoc, ← List.append_assoc (descExpand u0), ← List.append_assoc (descExpand u0)]
  refine runD_burst _ _ _ _ ?_ ?_ ?_ (descExpand_lt _ hu0') (descExpand_lt _ wx96) (descExpand_lt _ wy96) ?_
  · rw [descExpand_length, descExpand_length, hwl]
  · rw [descExpand_length]; omega
  · intro e
    have := descExpand_inj _ _ hwl wx96 wy96 e
    rw [ex, ey, hsame] at this
    exact hne (List.append_cancel_left (List.append_cancel_right this))
  · intro a ha
    rw [List.mem_append] at ha
    rcases ha with ha | ha
    · exact descExpand_lt _ (fun a ha => hv a (List.mem_of_mem_drop ha)) a ha
    · rw [List.eq_of_mem_replicate ha]; decide

/-! ### The code -/

theorem byte_low5 (b : UInt8) : (b &&& 1 != 0) = b.toNat.testBit 0 ∧ (b &&& 2 != 0) = b.toNat.testBit 1 ∧ (b &&& 4 != 0) = b.toNat.testBit 2 ∧
    (b &&& 8 != 0) = b.toNat.testBit 3 ∧ (b &&& 16 != 0) = b.toNat.testBit 4 := by
  revert b; apply forall_byte; decide +kernel

theorem ite_toNat (p : Bool) (c g : UInt64) : (if p = true then c ^^^ g else c).toNat = c.toNat ^^^ msk p g.toNat := by
  cases p <;> simp [msk]

theorem polyMod_toNat (c v : UInt64) : (polyMod c v).toNat = Spec.descStep c.toNat v.toNat := by
  obtain ⟨b0, b1, b2, b3, b4⟩ := byte_low5 (c >>> 35).toUInt8
  have hb : ∀ i < 8, ((c >>> 35).toUInt8).toNat.testBit i = (c.toNat >>> 35).testBit i := by
    intro i hi
    rw [UInt64.toNat_toUInt8, Nat.testBit_mod_two_pow]
    simp [hi]
  have hs : (((c &&& 0x7ffffffff) <<< 5) ^^^ v).toNat = ((c.toNat &&& 0x7ffffffff) <<< 5) ^^^ v.toNat := by
    rw [UInt64.toNat_xor, UInt64.toNat_shiftLeft, UInt64.toNat_and]
    congr 1
    have : c.toNat &&& 0x7ffffffff ≤ 0x7ffffffff := Nat.and_le_right
    apply Nat.mod_eq_of_lt
    rw [Nat.shiftLeft_eq]
    show (c.toNat &&& 0x7ffffffff) * 2 ^ 5 < 2 ^ 64
    omega
  unfold polyMod
  dsimp only
  rw [b0, b1, b2, b3, b4, hb 0 (by omega), hb 1 (by omega), hb 2 (by omega), hb 3 (by omega), hb 4 (by omega)]
  simp only [ite_toNat]
  rw [hs, descStep_eq]
  unfold descZ descTop
  simp only [show UInt64.toNat 0xf5dee51989 = 0xf5dee51989 from rfl, show UInt64.toNat 0xa9fdca3312 = 0xa9fdca3312 from rfl, show UInt64.toNat 0x1bab10e32d = 0x1bab10e32d from rfl,
    show UInt64.toNat 0x3706b1677a = 0x3706b1677a from rfl, show UInt64.toNat 0x644d626ffd = 0x644d626ffd from rfl]
  ac_rfl

theorem inputCharset_eq : inputCharset = descChars ++ [0] := rfl

theorem descChars_length : descChars.length = 95 := by decide

theorem charPos {ch : UInt8} (h : ch ∈ descChars) : ch ∈ inputCharset ∧ inputCharset.idxOf ch = descChars.idxOf ch ∧ descChars.idxOf ch < 96 := by
  refine ⟨by rw [inputCharset_eq]; simp [h], ?_, ?_⟩
  · rw [inputCharset_eq, List.idxOf_append_of_mem h]
  · have := List.idxOf_lt_length_of_mem h
    rw [descChars_length] at this
    omega

/-- PSBT.cpp:71 -/
def descFinish (st : DescState) : UInt64 := if st.clscount > 0 then polyMod st.c (UInt64.ofNat st.cls) else st.c

theorem polyMod_sym (c : UInt64) (k : Nat) (h : k < 96) : (polyMod c (UInt64.ofNat k)).toNat = Spec.descStep c.toNat k := by
  rw [polyMod_toNat, UInt64.toNat_ofNat', Nat.mod_eq_of_lt (by omega)]

theorem descStep_ok (st : DescState) (ch : UInt8) (h : ch ∈ descChars) :
    UB.descStep st ch = if st.clscount + 1 = 3 then
      some ⟨polyMod (polyMod st.c (UInt64.ofNat (descChars.idxOf ch % 32))) (UInt64.ofNat (st.cls * 3 + descChars.idxOf ch / 32)), 0, 0⟩
      else some ⟨polyMod st.c (UInt64.ofNat (descChars.idxOf ch % 32)), st.cls * 3 + descChars.idxOf ch / 32, st.clscount + 1⟩ := by
  obtain ⟨h1, h2, -⟩ := charPos h
  unfold UB.descStep
  rw [if_pos h1, h2]
  dsimp only
  rw [show (31 : Nat) = 2 ^ 5 - 1 from rfl, Nat.and_two_pow_sub_one_eq_mod, Nat.shiftRight_eq_div_pow]

theorem descStep_0 (c : UInt64) (ch : UInt8) (h : ch ∈ descChars) :
    UB.descStep ⟨c, 0, 0⟩ ch = some ⟨polyMod c (UInt64.ofNat (descChars.idxOf ch % 32)), descChars.idxOf ch / 32, 1⟩ := by
  rw [descStep_ok _ _ h, if_neg (by simp), Nat.zero_mul, Nat.zero_add]

theorem descStep_1 (c : UInt64) (k : Nat) (ch : UInt8) (h : ch ∈ descChars) :
    UB.descStep ⟨c, k, 1⟩ ch = some ⟨polyMod c (UInt64.ofNat (descChars.idxOf ch % 32)), k * 3 + descChars.idxOf ch / 32, 2⟩ := by
  rw [descStep_ok _ _ h, if_neg (by simp)]

theorem descStep_2 (c : UInt64) (k : Nat) (ch : UInt8) (h : ch ∈ descChars) :
    UB.descStep ⟨c, k, 2⟩ ch = some ⟨polyMod (polyMod c (UInt64.ofNat (descChars.idxOf ch % 32))) (UInt64.ofNat (k * 3 + descChars.idxOf ch / 32)), 0, 0⟩ := by
  rw [descStep_ok _ _ h, if_pos rfl]

theorem descLoop (text : Bytes) (h : ∀ ch ∈ text, ch ∈ descChars) (c : UInt64) :
    ∃ st, text.foldlM UB.descStep ⟨c, 0, 0⟩ = some st ∧ (descFinish st).toNat = runD c.toNat (descExpand (text.map descChars.idxOf)) := by
  match text, h with
  | [], _ => exact ⟨_, rfl, rfl⟩
  | [a], h =>
    have ha := h a (by simp)
    have := (charPos ha).2.2
    refine ⟨⟨polyMod c (UInt64.ofNat (descChars.idxOf a % 32)), descChars.idxOf a / 32, 1⟩, by rw [List.foldlM_cons, descStep_0 _ _ ha]; rfl, ?_⟩
    simp only [descFinish, List.map_cons, List.map_nil, descExpand, runD, List.foldl_cons, List.foldl_nil]
    rw [if_pos (by decide), polyMod_sym _ _ (by omega), polyMod_sym _ _ (by omega)]
  | [a, b], h =>
    have ha := h a (by simp)
    have hb := h b (by simp)
    have := (charPos ha).2.2
    have := (charPos hb).2.2
    refine ⟨⟨polyMod (polyMod c (UInt64.ofNat (descChars.idxOf a % 32))) (UInt64.ofNat (descChars.idxOf b % 32)), descChars.idxOf a / 32 * 3 + descChars.idxOf b / 32, 2⟩, ?_, ?_⟩
    · rw [List.foldlM_cons, descStep_0 _ _ ha, Option.bind_eq_bind, Option.bind_some, List.foldlM_cons, descStep_1 _ _ _ hb]; rfl
    simp only [descFinish, List.map_cons, List.map_nil, descExpand, runD, List.foldl_cons, List.foldl_nil]
    rw [if_pos (by decide), polyMod_sym _ _ (by omega), polyMod_sym _ _ (by omega), polyMod_sym _ _ (by omega)]
  | a :: b :: d :: l, h =>
    have ha := h a (by simp)
    have hb := h b (by simp)
    have hd := h d (by simp)
    have := (charPos ha).2.2
    have := (charPos hb).2.2
    have := (charPos hd).2.2
    obtain ⟨st, h1, h2⟩ := descLoop l (fun x hx => h x (by simp [hx]))
      (polyMod (polyMod (polyMod (polyMod c (UInt64.ofNat (descChars.idxOf a % 32))) (UInt64.ofNat (descChars.idxOf b % 32))) (UInt64.ofNat (descChars.idxOf d % 32)))
        (UInt64.ofNat ((descChars.idxOf a / 32 * 3 + descChars.idxOf b / 32) * 3 + descChars.idxOf d / 32)))
    refine ⟨st, ?_, ?_⟩
    · rw [← h1, List.foldlM_cons, descStep_0 _ _ ha, Option.bind_eq_bind, Option.bind_some, List.foldlM_cons, descStep_1 _ _ _ hb, Option.bind_eq_bind, Option.bind_some, List.foldlM_cons,
        descStep_2 _ _ _ hd, Option.bind_eq_bind, Option.bind_some]
    · rw [h2, polyMod_sym _ _ (by omega), polyMod_sym _ _ (by omega), polyMod_sym _ _ (by omega), polyMod_sym _ _ (by omega)]
      rw [List.map_cons, List.map_cons, List.map_cons, descExpand, runD_append]
      simp only [runD, List.foldl_cons, List.foldl_nil]
      congr 2
      omega
  termination_by text.length

theorem descLoop_bad (text : Bytes) (h : ∃ ch ∈ text, ch ∉ inputCharset) (st : DescState) : text.foldlM UB.descStep st = none := by
  induction text generalizing st with
  | nil => obtain ⟨_, h, _⟩ := h; cases h
  | cons a l ih =>
    rw [List.foldlM_cons]
    match hs : UB.descStep st a with
    | none => rfl
    | some st' =>
      obtain ⟨ch, h1, h2⟩ := h
      rcases List.mem_cons.mp h1 with rfl | h1
      · unfold UB.descStep at hs
        rw [if_neg h2] at hs
        cases hs
      · exact ih ⟨ch, h1, h2⟩ st'

theorem shiftOut (c : UInt64) (n : Nat) : (List.replicate n ()).foldl (fun c _ => polyMod c 0) c = (List.range n).foldl (fun c _ => polyMod c 0) c := by
  have : ∀ (α : Type) (l : List α) (c : UInt64), l.foldl (fun c _ => polyMod c 0) c = (List.replicate l.length ()).foldl (fun c _ => polyMod c 0) c := by
    intro α l
    induction l with
    | nil => intro c; rfl
    | cons a l ih => intro c; rw [List.foldl_cons, ih]; rfl
  rw [this Nat, List.length_range]

theorem shiftOut_toNat (c : UInt64) (n : Nat) : ((List.range n).foldl (fun c _ => polyMod c 0) c).toNat = runD c.toNat (List.replicate n 0) := by
  rw [← shiftOut]
  induction n generalizing c with
  | zero => rfl
  | succ n ih =>
    rw [List.replicate_succ, List.foldl_cons, ih, polyMod_toNat, List.replicate_succ]
    rfl

theorem checksumCharset_eq : checksumCharset = descSymbolChars := rfl

theorem symbolAt (c : UInt64) (j : Nat) (hj : j < 8) :
    byteAt checksumCharset ((c >>> UInt64.ofNat (5 * (7 - j))) &&& 31).toNat = .ok (descSymbolChars.getD (c.toNat / 32 ^ (7 - j) % 32) 0) := by
  have e : ((c >>> UInt64.ofNat (5 * (7 - j))) &&& 31).toNat = c.toNat / 32 ^ (7 - j) % 32 := by
    rw [UInt64.toNat_and, UInt64.toNat_shiftRight, UInt64.toNat_ofNat', Nat.mod_eq_of_lt (show 5 * (7 - j) < 2 ^ 64 by omega), Nat.mod_eq_of_lt (show 5 * (7 - j) < 64 by omega),
      show UInt64.toNat 31 = 2 ^ 5 - 1 from rfl, Nat.and_two_pow_sub_one_eq_mod, Nat.shiftRight_eq_div_pow, Nat.pow_mul]
  rw [e, checksumCharset_eq]
  have hlt : c.toNat / 32 ^ (7 - j) % 32 < descSymbolChars.length := Nat.lt_of_lt_of_eq (Nat.mod_lt _ (by decide)) (by decide)
  rw [List.getD_eq_getElem _ _ hlt]
  exact byteAt_eq (List.getElem?_eq_getElem hlt)

theorem writeSymbols (c : UInt64) (m j : Nat) (hj : j ≤ 8) :
    (List.range j).foldlM (fun (o : Bytes) j => do
        let x ← byteAt checksumCharset ((c >>> UInt64.ofNat (5 * (7 - j))) &&& 31).toNat
        store o j [x]) (List.replicate 8 0x20 ++ zeros m) =
      .ok ((List.range j).map (fun i => descSymbolChars.getD (c.toNat / 32 ^ (7 - i) % 32) 0) ++ (List.replicate (8 - j) 0x20 ++ zeros m)) := by
  induction j with
  | zero => rfl
  | succ j ih =>
    rw [List.range_succ, foldlM_snoc, ih (by omega), C.bind_ok, symbolAt c j (by omega), C.bind_ok]
    have := store_put_mid ((List.range j).map fun i => descSymbolChars.getD (c.toNat / 32 ^ (7 - i) % 32) 0) (List.replicate (8 - j) 0x20 ++ zeros m)
      [descSymbolChars.getD (c.toNat / 32 ^ (7 - j) % 32) 0] (by simp; omega)
    rw [List.length_map, List.length_range] at this
    rw [this, List.map_append, List.map_cons, List.map_nil, show 8 - j = (8 - (j + 1)) + 1 by omega, List.replicate_succ]
    rfl

theorem descriptorChecksum_ok (span output : Bytes) (ho : 8 ≤ output.length) (st : DescState) (h1 : span.foldlM UB.descStep ⟨1, 0, 0⟩ = some st) :
    descriptorChecksum span output = .ok (8, (List.range 8).map (fun i => descSymbolChars.getD ((runD (descFinish st).toNat (List.replicate 8 0) ^^^ 1) / 32 ^ (7 - i) % 32) 0) ++
      zeros (output.length - 8)) := by
  unfold descriptorChecksum
  dsimp only
  rw [length_zeros, if_neg (by omega), h1]
  dsimp only
  have e8 : store (zeros output.length) 0 (List.replicate 8 0x20) = .ok (List.replicate 8 0x20 ++ zeros (output.length - 8)) := by
    have := store_put_mid [] (zeros output.length) (List.replicate 8 0x20) (by rw [length_zeros]; simp; omega)
    rw [List.nil_append, List.length_nil, List.nil_append, List.length_replicate] at this
    rw [this]
    unfold zeros
    rw [List.drop_replicate]
  rw [show (if st.clscount > 0 then polyMod st.c (UInt64.ofNat st.cls) else st.c) = descFinish st from rfl, e8, C.bind_ok, writeSymbols _ _ _ (Nat.le_refl _), C.bind_ok,
    UInt64.toNat_xor, shiftOut_toNat]
  rfl

/-- C59: the checksum of every text over the alphabet of descriptors is that of BIP 380. -/
theorem C59_checksum (span output : Bytes) (hs : ∀ ch ∈ span, ch ∈ descChars) (ho : 8 ≤ output.length) :
    descriptorChecksum span output = .ok (8, descChecksum span ++ zeros (output.length - 8)) := by
  obtain ⟨st, h1, h2⟩ := descLoop span hs 1
  rw [descriptorChecksum_ok span output ho st h1, h2, ← runD_append]
  rfl

/-- C59: other characters are rejected (except NUL, see `C59_nul_accepted`), and so are small buffers. -/
theorem C59_rejects_partial (span output : Bytes) (h : (∃ ch ∈ span, ch ∉ descChars ∧ ch ≠ 0) ∨ output.length < 8) :
    descriptorChecksum span output = .ok (0, zeros output.length) := by
  unfold descriptorChecksum
  dsimp only
  by_cases hl : (zeros output.length).length < 8
  · rw [if_pos hl]; rfl
  · rw [if_neg hl]
    rcases h with ⟨ch, h1, h2, h3⟩ | h
    · rw [descLoop_bad span ⟨ch, h1, by rw [inputCharset_eq]; simp [h2, h3]⟩]
      rfl
    · rw [length_zeros] at hl
      exact absurd h hl

/-- C59 (finding): the terminating NUL of the alphabet is taken as a character: every text over the alphabet and NUL gets a checksum. -/
theorem C59_nul_accepted (span output : Bytes) (hs : ∀ ch ∈ span, ch ∈ descChars ∨ ch = 0) (ho : 8 ≤ output.length) :
    ∃ o, descriptorChecksum span output = .ok (8, o) := by
  have h : ∀ (l : Bytes) (st : DescState), (∀ ch ∈ l, ch ∈ descChars ∨ ch = 0) → ∃ st', l.foldlM UB.descStep st = some st' := by
    intro l
    induction l with
    | nil => intro st _; exact ⟨st, rfl⟩
    | cons a l ih =>
      intro st hl
      rw [List.foldlM_cons]
      have ha : a ∈ inputCharset := by
        rw [inputCharset_eq]
        rcases hl a (by simp) with h | h <;> simp [h]
      have : ∃ st', UB.descStep st a = some st' := by
        unfold UB.descStep
        rw [if_pos ha]
        dsimp only
        split <;> exact ⟨_, rfl⟩
      obtain ⟨st', h1⟩ := this
      rw [h1]
      exact ih st' fun ch h => hl ch (by simp [h])
  obtain ⟨st, h1⟩ := h span ⟨1, 0, 0⟩ hs
  exact ⟨_, descriptorChecksum_ok span output ho st h1⟩

/-- NUL is not in the alphabet, so `C59_nul_accepted` is a text that should be rejected. -/
example : (0 : UInt8) ∉ descChars := by decide

theorem descSymbols_inj : ∀ a < 32, ∀ b < 32, descSymbolChars.getD a 0 = descSymbolChars.getD b 0 → a = b := by decide +kernel

theorem descSymbols_safe : ∀ a < 32, descSymbolChars.getD a 0 ≠ 0 := by decide +kernel

theorem descChecksum_inj {s t : Bytes} (hs : descNumber s < 2 ^ 40) (ht : descNumber t < 2 ^ 40) (h : descChecksum s = descChecksum t) : descNumber s = descNumber t := by
  have key : ∀ i < 8, descNumber s / 32 ^ (7 - i) % 32 = descNumber t / 32 ^ (7 - i) % 32 := by
    intro i hi
    apply descSymbols_inj _ (Nat.mod_lt _ (by decide)) _ (Nat.mod_lt _ (by decide))
    have := congrArg (·[i]?) h
    unfold descChecksum at this
    simpa [List.getElem?_map, List.getElem?_range hi] using this
  generalize descNumber s = a at *
  generalize descNumber t = b at *
  have k0 := key 0 (by omega)
  have k1 := key 1 (by omega)
  have k2 := key 2 (by omega)
  have k3 := key 3 (by omega)
  have k4 := key 4 (by omega)
  have k5 := key 5 (by omega)
  have k6 := key 6 (by omega)
  have k7 := key 7 (by omega)
  simp only [Nat.sub_zero, Nat.reduceSub, Nat.reducePow, Nat.div_one] at k0 k1 k2 k3 k4 k5 k6 k7
  omega

/-- C59: texts that differ in one character, or within four consecutive ones, have different checksums. -/
theorem C59_detects (u x y v : Bytes) (hl : x.length = y.length) (h4 : x.length ≤ 4) (hne : x ≠ y) (hu : ∀ ch ∈ u, ch ∈ descChars) (hx : ∀ ch ∈ x, ch ∈ descChars)
    (hy : ∀ ch ∈ y, ch ∈ descChars) (hv : ∀ ch ∈ v, ch ∈ descChars) : descChecksum (u ++ x ++ v) ≠ descChecksum (u ++ y ++ v) := by
  have pos : ∀ l : Bytes, (∀ ch ∈ l, ch ∈ descChars) → ∀ a ∈ l.map descChars.idxOf, a < 96 := by
    intro l h a ha
    rw [List.mem_map] at ha
    obtain ⟨ch, h1, rfl⟩ := ha
    exact (charPos (h ch h1)).2.2
  have hlt : ∀ l : Bytes, (∀ ch ∈ l, ch ∈ descChars) → descNumber l < 2 ^ 40 := by
    intro l h
    refine Nat.xor_lt_two_pow (runD_lt _ ?_ 1 (by decide)) (by decide)
    intro a ha
    rw [List.mem_append] at ha
    rcases ha with ha | ha
    · exact descExpand_lt _ (pos l h) a ha
    · rw [List.eq_of_mem_replicate ha]; decide
  have all : ∀ z : Bytes, (∀ ch ∈ z, ch ∈ descChars) → ∀ ch ∈ u ++ z ++ v, ch ∈ descChars := by
    intro z hz ch hch
    rw [List.mem_append, List.mem_append] at hch
    rcases hch with (h | h) | h
    · exact hu ch h
    · exact hz ch h
    · exact hv ch h
  intro h
  have h1 := descChecksum_inj (hlt _ (all x hx)) (hlt _ (all y hy)) h
  have h2 : descPolymod (descExpand ((u ++ x ++ v).map descChars.idxOf) ++ List.replicate 8 0) =
      descPolymod (descExpand ((u ++ y ++ v).map descChars.idxOf) ++ List.replicate 8 0) := by
    have := congrArg (· ^^^ 1) h1
    simpa [descNumber, Nat.xor_assoc] using this
  simp only [List.map_append] at h2
  refine desc_burst _ _ _ _ (by simpa using hl) (by simpa using h4) ?_ (pos u hu) (pos x hx) (pos y hy) (pos v hv) h2
  intro e
  apply hne
  have inj : ∀ a ∈ descChars, ∀ b ∈ descChars, descChars.idxOf a = descChars.idxOf b → a = b := by
    intro a ha b hb hab
    have h1 := List.getElem_idxOf (List.idxOf_lt_length_of_mem ha)
    have h2 := List.getElem_idxOf (List.idxOf_lt_length_of_mem hb)
    rw [← h1, ← h2]
    congr 1
  clear h h1 h2 h4
  induction x generalizing y with
  | nil => exact (List.length_eq_zero_iff.mp hl.symm).symm
  | cons a x ih =>
    match y, hl with
    | b :: y, hl =>
      rw [List.map_cons, List.map_cons, List.cons.injEq] at e
      by_cases hxy : x = y
      · rw [hxy, inj a (hx a (by simp)) b (hy b (by simp)) e.1]
      · rw [ih y (by simpa using hl) hxy (fun ch h => hx ch (by simp [h])) (fun ch h => hy ch (by simp [h])) e.2, inj a (hx a (by simp)) b (hy b (by simp)) e.1]

/-- C59: the overload for strings. -/
theorem C59_string (text : Bytes) (h : ∀ ch ∈ text, ch ∈ descChars) : descriptorChecksumString text = .ok (descChecksum text) := by
  have hz : cstr text = text := by
    unfold cstr
    rw [List.takeWhile_eq_self_iff]
    intro ch hch
    simp only [ne_eq, decide_not, Bool.not_eq_eq_eq_not, Bool.not_true, decide_eq_false_iff_not]
    rintro rfl
    exact absurd (h 0 hch) (by decide)
  unfold descriptorChecksumString
  rw [hz, C59_checksum text (zeros 10) h (by decide), C.bind_ok]
  dsimp only
  rw [stringFrom_zeros _ _ (by decide)]
  congr 1
  unfold cstr
  rw [List.takeWhile_append_of_pos]
  · have : (zeros ((zeros 10).length - 8)).takeWhile (fun x => decide (x ≠ 0)) = [] := by decide
    rw [this, List.append_nil]
  · intro ch hch
    unfold descChecksum at hch
    rw [List.mem_map] at hch
    obtain ⟨i, -, rfl⟩ := hch
    simpa using descSymbols_safe _ (Nat.mod_lt _ (by decide))

/-- C59: the overload for strings gives the empty string exactly when the text (up to its end) has a character outside of the alphabet. -/
theorem C59_string_rejects (text : Bytes) (h : ∃ ch ∈ cstr text, ch ∉ descChars) : descriptorChecksumString text = .ok [] := by
  obtain ⟨ch, h1, h2⟩ := h
  have h0 : ch ≠ 0 := by
    unfold cstr at h1
    have := List.mem_takeWhile_imp h1
    simpa using this
  unfold descriptorChecksumString
  rw [C59_rejects_partial (cstr text) (zeros 10) (.inl ⟨ch, h1, h2, h0⟩), C.bind_ok]
  rfl

/-- A rejected text: an accented letter. -/
example : ∃ ch ∈ cstr [0x61, 0xe9, 0x62], ch ∉ descChars := ⟨0xe9, by decide, by decide⟩

/-- C59: the code gives different checksums to texts that differ within four consecutive characters. -/
theorem C59_string_detects (u x y v : Bytes) (hl : x.length = y.length) (h4 : x.length ≤ 4) (hne : x ≠ y) (hx : ∀ ch ∈ u ++ x ++ v, ch ∈ descChars)
    (hy : ∀ ch ∈ u ++ y ++ v, ch ∈ descChars) : descriptorChecksumString (u ++ x ++ v) ≠ descriptorChecksumString (u ++ y ++ v) := by
  rw [C59_string _ hx, C59_string _ hy]
  intro h
  injection h with h
  exact C59_detects u x y v hl h4 hne (fun c hc => hx c (by simp [hc])) (fun c hc => hx c (by simp [hc])) (fun c hc => hy c (by simp [hc])) (fun c hc => hx c (by simp [hc])) h

/-- raw(deadbeef) and raw(deedbeef). -/
example : descriptorChecksumString ([0x72, 0x61, 0x77, 0x28, 0x64, 0x65] ++ [0x61] ++ [0x64, 0x62, 0x65, 0x65, 0x66, 0x29]) ≠
    descriptorChecksumString ([0x72, 0x61, 0x77, 0x28, 0x64, 0x65] ++ [0x65] ++ [0x64, 0x62, 0x65, 0x65, 0x66, 0x29]) :=
  C59_string_detects _ _ _ _ rfl (by decide) (by decide) (by decide) (by decide)

/-- The test vector of BIP 380: raw(deadbeef)#89f8spxm. -/
example : descChecksum [0x72, 0x61, 0x77, 0x28, 0x64, 0x65, 0x61, 0x64, 0x62, 0x65, 0x65, 0x66, 0x29] =
    [0x38, 0x39, 0x66, 0x38, 0x73, 0x70, 0x78, 0x6d] := by decide +kernel

/-- A text meeting the hypotheses of `C59_checksum`. -/
example : ∀ ch ∈ ([0x72, 0x61, 0x77, 0x28, 0x64, 0x65, 0x61, 0x64, 0x62, 0x65, 0x65, 0x66, 0x29] : Bytes), ch ∈ descChars := by decide

end UB
