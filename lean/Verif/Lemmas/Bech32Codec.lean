import Verif.Lemmas.Bech32
import Mathlib.Data.List.Forall2

namespace UB
open Spec

/-! ### Characters and values -/

/-- `c` is the data character, in either case, with value `v`. -/
def IsVal (c v : UInt8) : Prop := v < 32 ∧ toLower c = bechChar v

instance (c v : UInt8) : Decidable (IsVal c v) := by unfold IsVal; infer_instance

theorem rev_cases (c : UInt8) :
    (∃ v, IsVal c v ∧ bech32Rev c = .ok v.toNat) ∨ (bech32Rev c = .ok (-1) ∧ ∀ v, ¬ IsVal c v) := by
  have h : ∀ c : UInt8, (∃ n < 32, IsVal c (UInt8.ofNat n) ∧ bech32Rev c = .ok n) ∨
      (bech32Rev c = .ok (-1) ∧ ∀ n < 32, ¬ IsVal c (UInt8.ofNat n)) := by
    apply forall_byte
    decide +kernel
  rcases h c with ⟨n, hn, h1, h2⟩ | ⟨h1, h2⟩
  · refine .inl ⟨UInt8.ofNat n, h1, ?_⟩
    rw [h2, UInt8.toNat_ofNat', Nat.mod_eq_of_lt (by omega)]
  · refine .inr ⟨h1, fun v hv => ?_⟩
    refine h2 v.toNat (by have := hv.1; rw [UInt8.lt_iff_toNat_lt] at this; simpa using this) ?_
    simpa using hv

theorem bechChar_inj {v w : UInt8} (hv : v < 32) (hw : w < 32) (h : bechChar v = bechChar w) : v = w := by
  have key : ∀ a < 32, ∀ b < 32, bechChar (UInt8.ofNat a) = bechChar (UInt8.ofNat b) → a = b := by decide +kernel
  rw [UInt8.lt_iff_toNat_lt] at hv hw
  have := key v.toNat (by simpa using hv) w.toNat (by simpa using hw) (by simpa using h)
  exact UInt8.toNat_inj.mp this

theorem isVal_unique {c v w : UInt8} (h : IsVal c v) (h' : IsVal c w) : v = w :=
  bechChar_inj h.1 h'.1 (h.2.symm.trans h'.2)

theorem forall2_unique {cs vs ws : Bytes} (h : List.Forall₂ IsVal cs vs) (h' : List.Forall₂ IsVal cs ws) : vs = ws := by
  induction h generalizing ws with
  | nil => cases h'; rfl
  | cons h1 _ ih => cases h' with | cons h2 h3 => rw [isVal_unique h1 h2, ih h3]

theorem forall2_iff (cs vs : Bytes) : List.Forall₂ IsVal cs vs ↔ (∀ v ∈ vs, v < 32) ∧ cs.map toLower = vs.map bechChar := by
  induction cs generalizing vs with
  | nil =>
    constructor
    · intro h; cases h; simp
    · rintro ⟨-, h⟩
      have : vs = [] := by simpa using h.symm
      subst this; exact .nil
  | cons c cs ih =>
    constructor
    · intro h
      cases h with
      | cons h1 h2 =>
        obtain ⟨a, b⟩ := (ih _).mp h2
        refine ⟨?_, by simp [h1.2, b]⟩
        intro v hv
        rcases List.mem_cons.mp hv with rfl | hv
        · exact h1.1
        · exact a v hv
    · rintro ⟨h1, h2⟩
      cases vs with
      | nil => simp at h2
      | cons v vs =>
        simp only [List.map_cons, List.cons.injEq] at h2
        exact .cons ⟨h1 v (by simp), h2.1⟩ ((ih vs).mpr ⟨fun w hw => h1 w (by simp [hw]), h2.2⟩)

theorem bechChar_facts (v : UInt8) (h : v < 32) :
    bechChar v ≠ 0x31 ∧ isUpper (bechChar v) = false ∧ bechChar v ≠ 0 ∧ toLower (bechChar v) = bechChar v
    ∧ bech32Charset[v.toNat]? = some (bechChar v) := by
  have key : ∀ a < 32, bechChar (UInt8.ofNat a) ≠ 0x31 ∧ isUpper (bechChar (UInt8.ofNat a)) = false ∧ bechChar (UInt8.ofNat a) ≠ 0
      ∧ toLower (bechChar (UInt8.ofNat a)) = bechChar (UInt8.ofNat a)
      ∧ bech32Charset[(UInt8.ofNat a).toNat]? = some (bechChar (UInt8.ofNat a)) := by decide +kernel
  rw [UInt8.lt_iff_toNat_lt] at h
  have := key v.toNat (by simpa using h)
  simpa using this

theorem lower_one (c : UInt8) (h : toLower c = 0x31) : c = 0x31 := by
  revert h; revert c; apply forall_byte; decide +kernel

theorem upper_iff (s : Bytes) : hasUpper s ↔ s.any isUpper = true := by
  simp [hasUpper, isUpper]

theorem lower_iff (s : Bytes) : hasLower s ↔ s.any isLower = true := by
  simp [hasLower, isLower]

/-! ### Runs in the code and in the specification -/

def runU (c : UInt32) (vs : List UInt32) : UInt32 := vs.foldl (fun c v => bech32PolymodStep c ^^^ v) c

theorem runU_toNat (c : UInt32) (vs : List UInt32) : (runU c vs).toNat = runZ c.toNat (vs.map (·.toNat)) := by
  induction vs generalizing c with
  | nil => rfl
  | cons v vs ih =>
    show (runU (bech32PolymodStep c ^^^ v) vs).toNat = _
    rw [ih, step_xor_toNat, List.map_cons, runZ_cons, polymodStep_eq]

theorem hrpLow_eq (hrp : Bytes) (c : UInt32) : (bech32HrpLow hrp c).toNat = runZ c.toNat (hrp.map fun x => x.toNat % 32) := by
  have e : bech32HrpLow hrp c = runU c (hrp.map fun ch => (ch &&& 0x1f).toUInt32) := by
    simp only [bech32HrpLow, runU, List.foldl_map]
  rw [e, runU_toNat, List.map_map]
  congr 1
  apply List.map_congr_left
  intro x _
  simp only [Function.comp, UInt8.toNat_toUInt32, UInt8.toNat_and, UInt8.reduceToNat]
  exact Nat.and_two_pow_sub_one_eq_mod x.toNat 5

theorem shift5 (x : UInt8) : (x >>> 5).toUInt32.toNat = x.toNat / 32 := by
  simp [UInt8.toNat_shiftRight, Nat.shiftRight_eq_div_pow]

theorem run_zero (c : UInt32) : (bech32PolymodStep c).toNat = runZ c.toNat [0] := by
  rw [runZ_cons, runZ_nil, step_toNat]; simp

theorem runZ_hrp (hrp : Bytes) (c : Nat) (vs : List Nat) :
    runZ c (hrpExpand hrp ++ vs) = runZ (runZ (runZ (runZ c (hrp.map fun c => c.toNat / 32)) [0]) (hrp.map fun c => c.toNat % 32)) vs := by
  simp only [hrpExpand, runZ_append]

/-! ### Encoding -/

def GoodHrp (hrp : Bytes) : Prop := ∀ c ∈ hrp, 33 ≤ c ∧ c ≤ 126 ∧ isUpper c = false

instance (hrp : Bytes) : Decidable (GoodHrp hrp) := by unfold GoodHrp; infer_instance

theorem hrpHigh_good (hrp : Bytes) (c : UInt32) (h : GoodHrp hrp) :
    ∃ c', bech32HrpHigh hrp c = some c' ∧ c'.toNat = runZ c.toNat (hrp.map fun x => x.toNat / 32) := by
  induction hrp generalizing c with
  | nil => exact ⟨c, rfl, rfl⟩
  | cons x r ih =>
    obtain ⟨h1, h2, h3⟩ := h x (by simp)
    obtain ⟨c', e1, e2⟩ := ih (bech32PolymodStep c ^^^ (x >>> 5).toUInt32) (fun y hy => h y (by simp [hy]))
    refine ⟨c', ?_, ?_⟩
    · rw [bech32HrpHigh, if_neg, if_neg (by simp [h3]), e1]
      rintro (h | h)
      · exact absurd h1 (UInt8.not_le.mpr h)
      · exact absurd h2 (UInt8.not_le.mpr h)
    · rw [e2, step_xor_toNat, shift5, List.map_cons, runZ_cons, polymodStep_eq]

theorem hrpHigh_bad (hrp : Bytes) (c : UInt32) (h : ¬ GoodHrp hrp) : bech32HrpHigh hrp c = none := by
  induction hrp generalizing c with
  | nil => exact absurd (by intro c hc; simp at hc) h
  | cons x r ih =>
    rw [bech32HrpHigh]
    by_cases h1 : x < 33 ∨ x > 126
    · rw [if_pos h1]
    · rw [if_neg h1]
      by_cases h2 : isUpper x
      · rw [if_pos h2]
      · rw [if_neg h2]
        apply ih
        intro h3
        apply h
        intro y hy
        rcases List.mem_cons.mp hy with rfl | hy
        · rw [not_or] at h1
          exact ⟨UInt8.not_lt.mp h1.1, UInt8.not_lt.mp h1.2, by simpa using h2⟩
        · exact h3 y hy

theorem shr5_zero (d : UInt8) : (d >>> 5 ≠ 0) ↔ ¬ d < 32 := by
  revert d; apply forall_byte; decide +kernel

theorem encData_good (data : Bytes) (c : UInt32) (out : Bytes) (h : ∀ v ∈ data, v < 32) :
    ∃ c', bech32EncData data c out = .ok (some c', out ++ data.map bechChar)
      ∧ c'.toNat = runZ c.toNat (data.map UInt8.toNat) := by
  induction data generalizing c out with
  | nil => exact ⟨c, by simp [bech32EncData], rfl⟩
  | cons d r ih =>
    have hd := h d (by simp)
    obtain ⟨c', e1, e2⟩ := ih (bech32PolymodStep c ^^^ d.toUInt32) (out ++ [bechChar d]) (fun y hy => h y (by simp [hy]))
    refine ⟨c', ?_, ?_⟩
    · rw [bech32EncData, if_neg (by rw [shr5_zero]; simp [hd]), (bechChar_facts d hd).2.2.2.2]
      simp only [e1]
      simp
    · rw [e2, step_xor_toNat, UInt8.toNat_toUInt32, List.map_cons, runZ_cons, polymodStep_eq]

theorem encData_bad (data : Bytes) (c : UInt32) (out : Bytes) (h : ¬ ∀ v ∈ data, v < 32) :
    ∃ out', bech32EncData data c out = .ok (none, out') ∧ out'.length ≤ out.length + data.length := by
  induction data generalizing c out with
  | nil => exact absurd (by intro c hc; simp at hc) h
  | cons d r ih =>
    rw [bech32EncData]
    by_cases hd : d < 32
    · rw [if_neg (by rw [shr5_zero]; simp [hd]), (bechChar_facts d hd).2.2.2.2]
      obtain ⟨out', e1, e2⟩ := ih (bech32PolymodStep c ^^^ d.toUInt32) (out ++ [bechChar d]) (by
        intro h3; apply h; intro y hy
        rcases List.mem_cons.mp hy with rfl | hy
        · exact hd
        · exact h3 y hy)
      refine ⟨out', by simp only [e1], ?_⟩
      simp only [List.length_append, List.length_cons, List.length_nil] at e2 ⊢
      omega
    · rw [if_pos (by rw [shr5_zero]; exact hd)]
      exact ⟨out, rfl, by simp⟩

theorem store_zero (buf d : Bytes) (h : d.length ≤ buf.length) : store buf 0 d = .ok (d ++ buf.drop d.length) := by
  simp [store, h]

theorem char_getD (t : UInt32) (k : UInt32) (hk : k.toNat < 32) :
    bech32Charset.getD ((t >>> k) &&& 0x1f).toNat 0 = bechChar (UInt8.ofNat (t.toNat / 2 ^ k.toNat % 32)) := by
  have e : ((t >>> k) &&& 0x1f).toNat = t.toNat / 2 ^ k.toNat % 32 := by
    simp only [UInt32.toNat_and, UInt32.toNat_shiftRight, UInt32.reduceToNat, Nat.shiftRight_eq_div_pow, Nat.mod_eq_of_lt hk]
    exact Nat.and_two_pow_sub_one_eq_mod _ 5
  rw [e]
  simp only [bechChar, UInt8.toNat_ofNat']
  rw [Nat.mod_eq_of_lt (show t.toNat / 2 ^ k.toNat % 32 < 2 ^ 8 by omega)]
  rfl

/-- What `bech32_encode` does with a valid prefix and 5-bit data. -/
theorem bech32Encode_good (output hrp data : Bytes) (h1 : GoodHrp hrp) (h2 : ∀ v ∈ data, v < 32)
    (h3 : hrp.length + 7 + data.length ≤ 1000) (h4 : hrp.length + 8 + data.length ≤ output.length) :
    ∃ sum : Bytes, sum.length = 6 ∧ (∀ v ∈ sum, v < 32) ∧
      polymod (hrpExpand hrp ++ (data ++ sum).map UInt8.toNat) = 1 ∧
      bech32Encode output hrp data = .ok (true,
        (hrp ++ [0x31] ++ (data ++ sum).map bechChar ++ [0]) ++ output.drop (hrp.length + 8 + data.length)) := by
  obtain ⟨c1, e1, f1⟩ := hrpHigh_good hrp 1 h1
  obtain ⟨c3, e3, f3⟩ := encData_good data (bech32HrpLow hrp (bech32PolymodStep c1)) (hrp ++ [0x31]) h2
  have fc3 : c3.toNat = runZ 1 (hrpExpand hrp ++ data.map UInt8.toNat) := by
    rw [f3, hrpLow_eq, run_zero, f1, runZ_hrp]; rfl
  let t : UInt32 := bech32PolymodStep (bech32PolymodStep (bech32PolymodStep (bech32PolymodStep
        (bech32PolymodStep (bech32PolymodStep c3))))) ^^^ 1
  have ft : t.toNat = runZ c3.toNat (List.replicate 6 0) ^^^ 1 := by
    show UInt32.toNat (_ ^^^ _) = _
    rw [UInt32.toNat_xor]
    simp only [step_toNat, List.replicate, runZ_cons, runZ_nil, Nat.xor_zero]
    rfl
  have ht : t.toNat < 2 ^ 30 := by
    rw [ft]
    apply Nat.xor_lt_two_pow _ (by decide)
    rw [show List.replicate 6 0 = List.replicate 5 0 ++ [0] from rfl, runZ_append, runZ_cons, runZ_nil]
    simpa using stepZ_lt _
  let sum : Bytes := (checksumValues t.toNat).map UInt8.ofNat
  have hval : ∀ v ∈ checksumValues t.toNat, v < 32 := by
    intro v hv
    simp only [checksumValues, List.mem_cons, List.not_mem_nil, or_false] at hv
    omega
  have hsn : sum.map UInt8.toNat = checksumValues t.toNat := by
    simp only [sum, List.map_map]
    conv => rhs; rw [← List.map_id (checksumValues t.toNat)]
    apply List.map_congr_left
    intro v hv
    have := hval v hv
    simp only [Function.comp, UInt8.toNat_ofNat', id]
    omega
  refine ⟨sum, by simp [sum, checksumValues], ?_, ?_, ?_⟩
  · intro v hv
    simp only [sum, List.mem_map] at hv
    obtain ⟨w, hw, rfl⟩ := hv
    have := hval w hw
    rw [UInt8.lt_iff_toNat_lt, UInt8.toNat_ofNat']
    show w % 2 ^ 8 < 32
    omega
  · show runZ 1 _ = 1
    rw [List.map_append, ← List.append_assoc, runZ_append, ← fc3, hsn, ft, runZ_checksum]
  · have htail : ((List.range 6).map fun i =>
        bech32Charset.getD ((t >>> UInt32.ofNat ((5 - i) * 5)) &&& 0x1f).toNat 0) = sum.map bechChar := by
      simp only [List.range, List.range.loop, List.map_cons, List.map_nil, sum, checksumValues]
      rw [char_getD _ _ (by decide), char_getD _ _ (by decide), char_getD _ _ (by decide), char_getD _ _ (by decide),
        char_getD _ _ (by decide), char_getD _ _ (by decide)]
      simp only [Nat.reduceSub, Nat.reduceMul, UInt32.reduceOfNat, UInt32.reduceToNat, Nat.reducePow, Nat.div_one]
      rw [Nat.mod_eq_of_lt (show t.toNat / 33554432 < 32 by omega)]
    unfold bech32Encode
    simp only [e1]
    rw [if_neg (by simp only [maxBech32Size]; omega)]
    simp only [e3, C.bind_ok]
    show (do let output ← store output 0 ((hrp ++ [0x31] ++ data.map bechChar) ++ ((List.range 6).map fun i =>
        bech32Charset.getD ((t >>> UInt32.ofNat ((5 - i) * 5)) &&& 0x1f).toNat 0) ++ [0]); pure (true, output)) = _
    rw [htail]
    have hl : (hrp ++ [0x31] ++ data.map bechChar ++ sum.map bechChar ++ [0]).length = hrp.length + 8 + data.length := by
      simp [sum, checksumValues]; omega
    rw [store_zero _ _ (by rw [hl]; exact h4), hl]
    simp

/-- Everything else is refused. -/
theorem bech32Encode_bad (output hrp data : Bytes)
    (h : ¬ (GoodHrp hrp ∧ (∀ v ∈ data, v < 32) ∧ hrp.length + 7 + data.length ≤ 1000))
    (h4 : hrp.length + 8 + data.length ≤ output.length) :
    ∃ out, bech32Encode output hrp data = .ok (false, out) := by
  unfold bech32Encode
  by_cases h1 : GoodHrp hrp
  · obtain ⟨c1, e1, f1⟩ := hrpHigh_good hrp 1 h1
    simp only [e1]
    by_cases h3 : hrp.length + 7 + data.length > maxBech32Size
    · rw [if_pos h3]; exact ⟨output, rfl⟩
    · rw [if_neg h3]
      have h2 : ¬ ∀ v ∈ data, v < 32 := fun h2 => h ⟨h1, h2, by simpa [maxBech32Size] using h3⟩
      obtain ⟨out', e3, f3⟩ := encData_bad data (bech32HrpLow hrp (bech32PolymodStep c1)) (hrp ++ [0x31]) h2
      simp only [e3, C.bind_ok]
      rw [store_zero _ _ (by simp only [List.length_append, List.length_cons, List.length_nil] at f3; omega)]
      exact ⟨_, rfl⟩
  · simp only [hrpHigh_bad hrp 1 h1]
    exact ⟨output, rfl⟩

end UB
