import Verif.Lemmas.Bech32Codec

namespace UB
open Spec

theorem upper_lower (c : UInt8) (h : isUpper c = true) : c - 0x41 + 0x61 = toLower c ∧ isLower c = false ∧ 33 ≤ c ∧ c ≤ 126 := by
  revert h; revert c; apply forall_byte; decide +kernel

theorem not_upper (c : UInt8) (h : isUpper c = false) : toLower c = c := by
  revert h; revert c; apply forall_byte; decide +kernel

theorem lower_range (c : UInt8) : (33 ≤ toLower c ∧ toLower c ≤ 126) ↔ (33 ≤ c ∧ c ≤ 126) := by
  revert c; apply forall_byte; decide +kernel

theorem toLower_mod (c : UInt8) : (toLower c).toNat % 32 = c.toNat % 32 := by
  revert c; apply forall_byte; decide +kernel

def InRange (s : Bytes) : Prop := ∀ c ∈ s, 33 ≤ c ∧ c ≤ 126

instance (s : Bytes) : Decidable (InRange s) := by unfold InRange; infer_instance

theorem decHrp_good (pre : Bytes) (s : Bech32State) (h : InRange pre) :
    ∃ s', bech32DecHrp pre s = (true, s') ∧ s'.out = s.out ++ pre.map toLower ∧ s'.lower = (s.lower || pre.any isLower)
      ∧ s'.upper = (s.upper || pre.any isUpper)
      ∧ s'.chk.toNat = runZ s.chk.toNat ((pre.map toLower).map fun x => x.toNat / 32) := by
  induction pre generalizing s with
  | nil => exact ⟨s, rfl, by simp, by simp, by simp, rfl⟩
  | cons ch r ih =>
    have hr : InRange r := fun y hy => h y (by simp [hy])
    obtain ⟨h1, h2⟩ := h ch (by simp)
    rw [bech32DecHrp, if_neg (by rintro (h | h); exacts [absurd h1 (UInt8.not_le.mpr h), absurd h2 (UInt8.not_le.mpr h)])]
    by_cases hl : isLower ch
    · rw [if_pos hl]
      have hu : isUpper ch = false := by
        cases hh : isUpper ch
        · rfl
        · rw [(upper_lower ch hh).2.1] at hl; cases hl
      obtain ⟨s', e1, e2, e3, e4, e5⟩ := ih { s with lower := true, out := s.out ++ [ch], chk := bech32PolymodStep s.chk ^^^ (ch >>> 5).toUInt32 } hr
      refine ⟨s', e1, ?_, ?_, ?_, ?_⟩
      · simp [e2, not_upper ch hu]
      · simp [e3, hl]
      · simp [e4, hu]
      · simp only [e5, step_xor_toNat, shift5, List.map_cons, runZ_cons, polymodStep_eq, not_upper ch hu]
    · rw [if_neg hl]
      by_cases hu : isUpper ch
      · rw [if_pos hu, (upper_lower ch hu).1]
        obtain ⟨s', e1, e2, e3, e4, e5⟩ := ih { s with upper := true, out := s.out ++ [toLower ch], chk := bech32PolymodStep s.chk ^^^ (toLower ch >>> 5).toUInt32 } hr
        refine ⟨s', e1, ?_, ?_, ?_, ?_⟩
        · simp [e2]
        · simp [e3, hl]
        · simp [e4, hu]
        · simp only [e5, step_xor_toNat, shift5, List.map_cons, runZ_cons, polymodStep_eq]
      · rw [if_neg hu]
        have hu' : isUpper ch = false := by simpa using hu
        obtain ⟨s', e1, e2, e3, e4, e5⟩ := ih { s with out := s.out ++ [ch], chk := bech32PolymodStep s.chk ^^^ (ch >>> 5).toUInt32 } hr
        refine ⟨s', e1, ?_, ?_, ?_, ?_⟩
        · simp [e2, not_upper ch hu']
        · simp [e3, hl]
        · simp [e4, hu]
        · simp only [e5, step_xor_toNat, shift5, List.map_cons, runZ_cons, polymodStep_eq, not_upper ch hu']

theorem decHrp_bad (pre : Bytes) (s : Bech32State) (h : ¬ InRange pre) :
    ∃ s', bech32DecHrp pre s = (false, s') ∧ s'.out.length + 1 ≤ s.out.length + pre.length := by
  induction pre generalizing s with
  | nil => exact absurd (by intro c hc; simp at hc) h
  | cons ch r ih =>
    rw [bech32DecHrp]
    by_cases h1 : ch < 33 ∨ ch > 126
    · rw [if_pos h1]; exact ⟨s, rfl, by simp⟩
    · rw [if_neg h1]
      have hr : ¬ InRange r := by
        intro h3; apply h; intro y hy
        rcases List.mem_cons.mp hy with rfl | hy
        · rw [not_or] at h1
          exact ⟨UInt8.not_lt.mp h1.1, UInt8.not_lt.mp h1.2⟩
        · exact h3 y hy
      split
      · obtain ⟨s', e1, e2⟩ := ih { s with lower := true, out := s.out ++ [ch], chk := bech32PolymodStep s.chk ^^^ (ch >>> 5).toUInt32 } hr
        refine ⟨s', e1, ?_⟩
        simp only [List.length_append, List.length_cons, List.length_nil] at e2 ⊢
        omega
      · split
        · obtain ⟨s', e1, e2⟩ := ih { s with upper := true, out := s.out ++ [ch - 0x41 + 0x61], chk := bech32PolymodStep s.chk ^^^ ((ch - 0x41 + 0x61) >>> 5).toUInt32 } hr
          refine ⟨s', e1, ?_⟩
          simp only [List.length_append, List.length_cons, List.length_nil] at e2 ⊢
          omega
        · obtain ⟨s', e1, e2⟩ := ih { s with out := s.out ++ [ch], chk := bech32PolymodStep s.chk ^^^ (ch >>> 5).toUInt32 } hr
          refine ⟨s', e1, ?_⟩
          simp only [List.length_append, List.length_cons, List.length_nil] at e2 ⊢
          omega

/-- The prefix loop fails exactly at the first character out of range. -/
theorem decHrp_until (good : Bytes) (b : UInt8) (rest : Bytes) (s : Bech32State) (h : InRange good) (hb : b < 33 ∨ b > 126) :
    ∃ s', bech32DecHrp (good ++ b :: rest) s = (false, s') ∧ s'.out = s.out ++ good.map toLower := by
  induction good generalizing s with
  | nil =>
    refine ⟨s, ?_, by simp⟩
    rw [List.nil_append, bech32DecHrp, if_pos hb]
  | cons ch r ih =>
    have hr : InRange r := fun y hy => h y (by simp [hy])
    obtain ⟨h1, h2⟩ := h ch (by simp)
    rw [List.cons_append, bech32DecHrp, if_neg (by rintro (h | h); exacts [absurd h1 (UInt8.not_le.mpr h), absurd h2 (UInt8.not_le.mpr h)])]
    by_cases hl : isLower ch
    · rw [if_pos hl]
      have hu : isUpper ch = false := by
        cases hh : isUpper ch
        · rfl
        · rw [(upper_lower ch hh).2.1] at hl; cases hl
      obtain ⟨s', e1, e2⟩ := ih { s with lower := true, out := s.out ++ [ch], chk := bech32PolymodStep s.chk ^^^ (ch >>> 5).toUInt32 } hr
      exact ⟨s', e1, by simp [e2, not_upper ch hu]⟩
    · rw [if_neg hl]
      by_cases hu : isUpper ch
      · rw [if_pos hu, (upper_lower ch hu).1]
        obtain ⟨s', e1, e2⟩ := ih { s with upper := true, out := s.out ++ [toLower ch], chk := bech32PolymodStep s.chk ^^^ (toLower ch >>> 5).toUInt32 } hr
        exact ⟨s', e1, by simp [e2]⟩
      · rw [if_neg hu]
        obtain ⟨s', e1, e2⟩ := ih { s with out := s.out ++ [ch], chk := bech32PolymodStep s.chk ^^^ (ch >>> 5).toUInt32 } hr
        exact ⟨s', e1, by simp [e2, not_upper ch (by simpa using hu)]⟩

theorem isVal_toNat {c v : UInt8} (h : IsVal c v) : UInt8.ofNat ((v.toNat : Int)).toNat = v := by
  simp

theorem decData_good (cs vs : Bytes) (s : Bech32State) (h : List.Forall₂ IsVal cs vs) :
    ∃ s', bech32DecData cs s = .ok (true, s') ∧ s'.out = s.out ++ vs.take (vs.length - 6)
      ∧ s'.lower = (s.lower || cs.any isLower) ∧ s'.upper = (s.upper || cs.any isUpper)
      ∧ s'.chk.toNat = runZ s.chk.toNat (vs.map UInt8.toNat) := by
  induction h generalizing s with
  | nil => exact ⟨s, rfl, by simp, by simp, by simp, rfl⟩
  | @cons c v cs vs hcv hrest ih =>
    have hlen := hrest.length_eq
    rcases rev_cases c with ⟨w, hw, e⟩ | ⟨-, hno⟩
    · have := isVal_unique hcv hw
      subst this
      obtain ⟨s', e1, e2, e3, e4, e5⟩ := ih
        { lower := s.lower || isLower c, upper := s.upper || isUpper c, chk := bech32PolymodStep s.chk ^^^ v.toUInt32,
          out := if cs.length + 1 > 6 then s.out ++ [v] else s.out }
      refine ⟨s', ?_, ?_, ?_, ?_, ?_⟩
      · rw [bech32DecData, e]
        simp only [C.bind_ok]
        rw [if_neg (by omega)]
        simp only [isVal_toNat hcv]
        exact e1
      · rw [e2]
        simp only [hlen]
        by_cases h6 : vs.length + 1 > 6
        · rw [if_pos h6, List.length_cons, show vs.length + 1 - 6 = (vs.length - 6) + 1 by omega, List.take_succ_cons]
          simp
        · rw [if_neg h6, List.length_cons, show vs.length + 1 - 6 = 0 by omega, show vs.length - 6 = 0 by omega]
          simp
      · rw [e3]; simp [Bool.or_assoc]
      · rw [e4]; simp [Bool.or_assoc]
      · rw [e5]
        simp only [step_xor_toNat, UInt8.toNat_toUInt32, List.map_cons, runZ_cons, polymodStep_eq]
    · exact absurd hcv (hno v)

theorem decData_bad (cs : Bytes) (s : Bech32State) (h : ¬ ∃ vs, List.Forall₂ IsVal cs vs) :
    ∃ s', bech32DecData cs s = .ok (false, s') ∧ s'.out.length ≤ s.out.length + (cs.length - 6) := by
  induction cs generalizing s with
  | nil => exact absurd ⟨[], .nil⟩ h
  | cons c cs ih =>
    rcases rev_cases c with ⟨v, hv, e⟩ | ⟨e, -⟩
    · obtain ⟨s', e1, e2⟩ := ih
        { lower := s.lower || isLower c, upper := s.upper || isUpper c, chk := bech32PolymodStep s.chk ^^^ v.toUInt32,
          out := if cs.length + 1 > 6 then s.out ++ [v] else s.out } (by
          rintro ⟨vs, hvs⟩
          exact h ⟨v :: vs, .cons hv hvs⟩)
      refine ⟨s', ?_, ?_⟩
      · rw [bech32DecData, e]
        simp only [C.bind_ok]
        rw [if_neg (by omega)]
        simp only [isVal_toNat hv]
        exact e1
      · refine Nat.le_trans e2 ?_
        show (if cs.length + 1 > 6 then s.out ++ [v] else s.out).length + (cs.length - 6) ≤ _
        split
        · simp only [List.length_append, List.length_cons, List.length_nil]; omega
        · simp only [List.length_cons]; omega
    · refine ⟨{ s with lower := s.lower || isLower c, upper := s.upper || isUpper c }, ?_, by simp⟩
      rw [bech32DecData, e]
      simp

/-! ### Separator -/

theorem sep_len (pre suf : Bytes) (h : 0x31 ∉ suf) :
    ((pre ++ 0x31 :: suf).reverse.takeWhile (· ≠ 0x31)).length = suf.length := by
  rw [List.reverse_append, List.reverse_cons, List.append_assoc]
  rw [List.takeWhile_append_of_pos]
  · simp
  · intro x hx
    simp only [List.mem_reverse] at hx
    simp only [decide_eq_true_eq]
    rintro rfl
    exact h hx

theorem split_sep (t : Bytes) : 0x31 ∉ t ∨ ∃ pre suf, t = pre ++ 0x31 :: suf ∧ (0x31 : UInt8) ∉ suf := by
  induction t with
  | nil => exact .inl (by simp)
  | cons c t ih =>
    rcases ih with h | ⟨pre, suf, rfl, h⟩
    · by_cases hc : c = 0x31
      · subst hc; exact .inr ⟨[], t, rfl, h⟩
      · left; simp only [List.mem_cons, not_or]; exact ⟨fun e => hc e.symm, h⟩
    · exact .inr ⟨c :: pre, suf, rfl, h⟩

theorem nosep_len (t : Bytes) (h : 0x31 ∉ t) : (t.reverse.takeWhile (· ≠ 0x31)).length = t.length := by
  rw [← List.append_nil t.reverse, List.takeWhile_append_of_pos]
  · simp
  · intro x hx
    simp only [List.mem_reverse] at hx
    simp only [decide_eq_true_eq]
    rintro rfl
    exact h hx

/-- A Bech32 text splits at its last `1`. -/
theorem bech32_split {text hrp data : Bytes} (h : Bech32 text hrp data) :
    ∃ (pre suf sum : Bytes), text = pre ++ 0x31 :: suf ∧ 0x31 ∉ suf ∧ pre.map toLower = hrp ∧ sum.length = 6
      ∧ List.Forall₂ IsVal suf (data ++ sum) ∧ polymod (hrpExpand hrp ++ (data ++ sum).map UInt8.toNat) = 1 := by
  obtain ⟨sum, h1, h2, h3, h4⟩ := h.form
  have e : text = text.take hrp.length ++ (text.drop hrp.length).take 1 ++ text.drop (hrp.length + 1) := by
    rw [List.append_assoc, ← List.drop_drop, List.take_append_drop, List.take_append_drop]
  have hlen : text.length = hrp.length + 1 + (data ++ sum).length := by
    have := congrArg List.length h3
    simp only [List.length_map, List.length_append, List.length_cons, List.length_nil] at this ⊢
    omega
  have e1 : (text.take hrp.length).map toLower = hrp := by
    rw [List.map_take, h3]; simp
  have e2 : ((text.drop hrp.length).take 1).map toLower = [0x31] := by
    rw [List.map_take, List.map_drop, h3]; simp
  have e3 : (text.drop (hrp.length + 1)).map toLower = (data ++ sum).map bechChar := by
    rw [List.map_drop, h3, List.append_assoc, ← List.drop_drop]
    simp
  obtain ⟨c, hc⟩ : ∃ c, (text.drop hrp.length).take 1 = [c] := by
    have : ((text.drop hrp.length).take 1).length = 1 := by simp; omega
    exact List.length_eq_one_iff.mp this
  have hc1 : c = 0x31 := lower_one c (by rw [hc] at e2; simpa using e2)
  have hall : ∀ v ∈ data ++ sum, v < 32 := by
    intro v hv
    rcases List.mem_append.mp hv with hv | hv
    · exact h.values v hv
    · exact h2 v hv
  refine ⟨text.take hrp.length, text.drop (hrp.length + 1), sum, ?_, ?_, e1, h1, ?_, h4⟩
  · rw [hc, hc1] at e
    simpa using e
  · intro hm
    have : toLower 0x31 ∈ (text.drop (hrp.length + 1)).map toLower := List.mem_map_of_mem hm
    rw [e3, List.mem_map] at this
    obtain ⟨v, hv, hv'⟩ := this
    exact (bechChar_facts v (hall v hv)).1 hv'
  · exact (forall2_iff _ _).mpr ⟨hall, e3⟩

theorem any_append3 (p : UInt8 → Bool) (pre suf : Bytes) (h : p 0x31 = false) :
    (pre ++ 0x31 :: suf).any p = (pre.any p || suf.any p) := by
  simp [h]

/-- `bech32_decode` on a text with a separator. -/
theorem decode_sep (hb db : Bytes) (dl : Nat) (pre suf : Bytes) (h31 : 0x31 ∉ suf)
    (hlen : 8 ≤ pre.length + 1 + suf.length ∧ pre.length + 1 + suf.length ≤ 1000)
    (hhb : 6 ≤ suf.length → pre.length + 1 ≤ hb.length) (hdb : suf.length ≤ db.length + 6) :
    (∃ r, bech32Decode hb db dl (pre ++ 0x31 :: suf) = .ok r ∧ r.ret = false ∧ ¬ ∃ hrp data, Bech32 (pre ++ 0x31 :: suf) hrp data) ∨
    (∃ data, Bech32 (pre ++ 0x31 :: suf) (pre.map toLower) data ∧ suf.length = data.length + 6 ∧
      bech32Decode hb db dl (pre ++ 0x31 :: suf) =
      .ok ⟨true, pre.map toLower ++ [0] ++ hb.drop (pre.length + 1), data ++ db.drop data.length, data.length⟩) := by
  have hL : (pre ++ 0x31 :: suf).length = pre.length + 1 + suf.length := by simp; omega
  unfold bech32Decode
  rw [if_neg (by rw [hL, maxBech32Size]; omega)]
  simp only [sep_len pre suf h31, hL]
  rw [if_pos (show 1 + suf.length ≤ pre.length + 1 + suf.length by omega)]
  have e0 : pre.length + 1 + suf.length - (1 + suf.length) = pre.length := by omega
  rw [e0]
  -- every Bech32 reading of the text is this one
  have huniq : ∀ hrp data, Bech32 (pre ++ 0x31 :: suf) hrp data → pre.map toLower = hrp ∧ ∃ sum : Bytes, sum.length = 6 ∧
      List.Forall₂ IsVal suf (data ++ sum) ∧ polymod (hrpExpand hrp ++ (data ++ sum).map UInt8.toNat) = 1 := by
    intro hrp data hB
    obtain ⟨pre', suf', sum, e1, e2, e3, e4, e5, e6⟩ := bech32_split hB
    have hs : suf.length = suf'.length := by
      rw [← sep_len pre suf h31, e1, sep_len pre' suf' e2]
    have hp : pre.length = pre'.length := by
      have := congrArg List.length e1
      simp only [List.length_append, List.length_cons] at this
      omega
    obtain ⟨rfl, e7⟩ := List.append_inj e1 hp
    simp only [List.cons.injEq, true_and] at e7
    subst e7
    exact ⟨e3, sum, e4, e5, e6⟩
  by_cases h6 : pre.length < 1 ∨ suf.length < 6
  · rw [if_pos h6]
    left
    refine ⟨_, rfl, rfl, ?_⟩
    rintro ⟨hrp, data, hB⟩
    obtain ⟨h1, sum, h2, h3, -⟩ := huniq hrp data hB
    rcases h6 with h6 | h6
    · apply hB.hrp_ne
      rw [← h1]
      have : pre = [] := List.length_eq_zero_iff.mp (by omega)
      simp [this]
    · have := h3.length_eq
      simp only [List.length_append] at this
      omega
  rw [if_neg h6]
  rw [not_or] at h6
  replace hhb := hhb (by omega)
  have etake : ((pre ++ 0x31 :: suf) ++ [0]).take pre.length = pre := by simp
  have etake' : (pre ++ 0x31 :: suf).take pre.length = pre := by simp
  have edrop : (pre ++ 0x31 :: suf).drop (pre.length + 1) = suf := by
    rw [← List.drop_drop]; simp
  rw [etake, etake', edrop]
  by_cases hr : InRange pre
  · obtain ⟨s1, e1, e2, e3, e4, e5⟩ := decHrp_good pre { chk := 1 } hr
    simp only [e1, not_true_eq_false, if_false]
    have e2' : s1.out = pre.map toLower := by simpa using e2
    rw [e2', store_zero _ _ (by simp; omega)]
    simp only [C.bind_ok]
    by_cases hv : ∃ vs, List.Forall₂ IsVal suf vs
    · obtain ⟨vs, hvs⟩ := hv
      have hvl := hvs.length_eq
      obtain ⟨s2, f1, f2, f3, f4, f5⟩ := decData_good suf vs
        { s1 with chk := bech32HrpLow pre (bech32PolymodStep s1.chk), out := [] } hvs
      simp only [List.nil_append] at f2
      simp only [f1, C.bind_ok, f2]
      rw [store_zero _ _ (by simp; omega)]
      simp only [C.bind_ok, C.pure_eq]
      have hchk : s2.chk.toNat = polymod (hrpExpand (pre.map toLower) ++ vs.map UInt8.toNat) := by
        rw [f5]
        show runZ (bech32HrpLow pre (bech32PolymodStep s1.chk)).toNat _ = runZ 1 _
        rw [hrpLow_eq, run_zero, e5, runZ_hrp]
        congr 2
        rw [List.map_map]
        apply List.map_congr_left
        intro x _
        exact (toLower_mod x).symm
      have hcase : (s2.lower && s2.upper) = true ↔ hasUpper (pre ++ 0x31 :: suf) ∧ hasLower (pre ++ 0x31 :: suf) := by
        rw [upper_iff, lower_iff, any_append3 _ _ _ (by decide), any_append3 _ _ _ (by decide), f3, f4]
        simp only [e3, e4, Bool.false_or, Bool.and_eq_true]
        exact and_comm
      by_cases hgood : (true && !(s2.lower && s2.upper) && s2.chk == 1) = true
      · right
        refine ⟨vs.take (vs.length - 6), ⟨⟨vs.drop (vs.length - 6), ?_, ?_, ?_, ?_⟩, ?_, ?_, ?_, ?_⟩, ?_, ?_⟩
        · simp; omega
        · intro v hv
          exact ((forall2_iff _ _).mp hvs).1 v (List.mem_of_mem_drop hv)
        · rw [List.take_append_drop, ← ((forall2_iff _ _).mp hvs).2]
          simp; rfl
        · rw [List.take_append_drop, ← hchk]
          simp only [Bool.true_and, Bool.and_eq_true, beq_iff_eq] at hgood
          rw [hgood.2]; rfl
        · intro h0
          have : pre = [] := by simpa using h0
          simp [this] at h6
        · intro c hc
          obtain ⟨x, hx, rfl⟩ := List.mem_map.mp hc
          exact (lower_range x).mpr (hr x hx)
        · intro v hv
          exact ((forall2_iff _ _).mp hvs).1 v (List.mem_of_mem_take hv)
        · intro hc
          rw [← hcase] at hc
          rw [hc] at hgood
          simp at hgood
        · simp; omega
        · rw [hgood]
          simp only [List.length_append, List.length_map, List.length_cons, List.length_nil, C.ok.injEq, Bech32Result.mk.injEq, true_and]
          rw [List.length_take, hvl]
          omega
      · left
        refine ⟨_, rfl, by simpa using hgood, ?_⟩
        rintro ⟨hrp, data, hB⟩
        apply hgood
        obtain ⟨h1, sum, h2, h3, h4⟩ := huniq hrp data hB
        have := forall2_unique hvs h3
        subst this
        subst h1
        rw [← hchk] at h4
        have h5 : s2.chk = 1 := UInt32.toNat_inj.mp h4
        have h7 : (s2.lower && s2.upper) = false := by
          rw [← Bool.not_eq_true, hcase]; exact hB.one_case
        simp [h5, h7]
    · left
      obtain ⟨s2, f1, f2⟩ := decData_bad suf { s1 with chk := bech32HrpLow pre (bech32PolymodStep s1.chk), out := [] } hv
      simp only [f1, C.bind_ok]
      rw [store_zero _ _ (by simp only [List.length_nil] at f2; omega)]
      refine ⟨_, rfl, by simp, ?_⟩
      rintro ⟨hrp, data, hB⟩
      obtain ⟨h1, sum, h2, h3, h4⟩ := huniq hrp data hB
      exact hv ⟨_, h3⟩
  · left
    obtain ⟨s1, e1, e2⟩ := decHrp_bad pre { chk := 1 } hr
    simp only [e1, if_true, Bool.false_eq_true, not_false_eq_true]
    rw [store_zero _ _ (by simp only [List.length_nil] at e2; omega)]
    refine ⟨_, rfl, rfl, ?_⟩
    rintro ⟨hrp, data, hB⟩
    obtain ⟨h1, sum, h2, h3, h4⟩ := huniq hrp data hB
    apply hr
    intro c hc
    rw [← lower_range]
    apply hB.hrp_range
    rw [← h1]
    exact List.mem_map_of_mem hc

/-- `bech32_decode` on a text without a separator. -/
theorem decode_nosep (hb db : Bytes) (dl : Nat) (text : Bytes) (h31 : 0x31 ∉ text)
    (hlen : 8 ≤ text.length ∧ text.length ≤ 1000) (hhb : text.length ≤ hb.length) :
    ∃ r, bech32Decode hb db dl text = .ok r ∧ r.ret = false := by
  unfold bech32Decode
  rw [if_neg (by rw [maxBech32Size]; omega)]
  simp only [nosep_len text h31]
  rw [if_neg (show ¬ 1 + text.length ≤ text.length by omega), if_neg (by omega)]
  have hbad : ¬ InRange ((text ++ [0]).take (2 ^ 64 - 1)) := by
    rw [List.take_of_length_le (by simp; omega)]
    intro h
    exact absurd (h 0 (by simp)).1 (by decide)
  obtain ⟨s1, e1, e2⟩ := decHrp_bad _ { chk := 1 } hbad
  rw [List.take_of_length_le (by simp; omega)] at e2
  simp only [e1, if_true, Bool.false_eq_true, not_false_eq_true]
  rw [store_zero _ _ (by simp only [List.length_nil, List.length_append, List.length_cons] at e2; omega)]
  exact ⟨_, rfl, rfl⟩

theorem bech32_has_sep {text hrp data : Bytes} (h : Bech32 text hrp data) : 0x31 ∈ text := by
  obtain ⟨pre, suf, sum, rfl, -⟩ := bech32_split h
  simp

end UB
