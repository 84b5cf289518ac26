import Verif.Lemmas.Bech32Decode

/-
C29 Bech32 round trip and validity, C30 detection of substitutions.
-/

namespace UB
open Spec

/-! ### C29 -/

theorem bech32_length {text hrp data : Bytes} (h : Bech32 text hrp data) : 8 ≤ text.length := by
  obtain ⟨pre, suf, sum, rfl, -, h1, h2, h3, -⟩ := bech32_split h
  have := h3.length_eq
  have h4 : pre.length ≠ 0 := by
    intro h0
    have : pre = [] := List.length_eq_zero_iff.mp h0
    exact h.hrp_ne (by rw [← h1, this]; rfl)
  simp only [List.length_append, List.length_cons] at this ⊢
  omega

/-- `bech32_decode` never fails on large enough buffers, accepts exactly the Bech32 texts of at most
1000 characters, and returns their prefix and data. -/
theorem C29_decode_exact_partial (hb db text : Bytes) (dl : Nat) (hhb : text.length < hb.length)
    (hdb : text.length ≤ db.length) :
    ∃ r, bech32Decode hb db dl text = .ok r ∧
      (r.ret = true ↔ text.length ≤ 1000 ∧ ∃ hrp data, Bech32 text hrp data) ∧
      (∀ hrp data, Bech32 text hrp data → text.length ≤ 1000 →
        (∃ rest, r.hrp = hrp ++ 0 :: rest) ∧ r.dataLen = data.length ∧ r.data.take r.dataLen = data) := by
  by_cases hlen : 8 ≤ text.length ∧ text.length ≤ 1000
  · rcases split_sep text with h31 | ⟨pre, suf, rfl, h31⟩
    · obtain ⟨r, e1, e2⟩ := decode_nosep hb db dl text h31 hlen (by omega)
      refine ⟨r, e1, ?_, ?_⟩
      · rw [e2]
        simp only [Bool.false_eq_true, false_iff]
        rintro ⟨-, hrp, data, hB⟩
        exact h31 (bech32_has_sep hB)
      · intro hrp data hB
        exact absurd (bech32_has_sep hB) h31
    · have hL : (pre ++ 0x31 :: suf).length = pre.length + 1 + suf.length := by simp; omega
      rw [hL] at hlen hhb hdb
      rcases decode_sep hb db dl pre suf h31 hlen (fun _ => by omega) (by omega) with ⟨r, e1, e2, e3⟩ | ⟨data, hB, e2, e3⟩
      · refine ⟨r, e1, ?_, ?_⟩
        · rw [e2]
          simp only [Bool.false_eq_true, false_iff]
          rintro ⟨-, h⟩
          exact e3 h
        · intro hrp data hB
          exact absurd ⟨hrp, data, hB⟩ e3
      · refine ⟨_, e3, ?_, ?_⟩
        · simp only [true_iff]
          exact ⟨by rw [hL]; omega, _, _, hB⟩
        · intro hrp data' hB' _
          obtain ⟨p1, s1, m1, f1, f2, f3, f4, f5, -⟩ := bech32_split hB
          obtain ⟨p2, s2, m2, g1, g2, g3, g4, g5, -⟩ := bech32_split hB'
          have hs : s1.length = s2.length := by
            rw [← sep_len p1 s1 f2, ← f1, g1, sep_len p2 s2 g2]
          have hp : p1.length = p2.length := by
            have := congrArg List.length (f1.symm.trans g1)
            simp only [List.length_append, List.length_cons] at this
            omega
          obtain ⟨rfl, e7⟩ := List.append_inj (f1.symm.trans g1) hp
          simp only [List.cons.injEq, true_and] at e7
          subst e7
          have hds := forall2_unique f5 g5
          obtain ⟨rfl, -⟩ := List.append_inj' hds (by rw [f4, g4])
          refine ⟨⟨hb.drop (p1.length + 1), ?_⟩, rfl, ?_⟩
          · show pre.map toLower ++ [0] ++ hb.drop (pre.length + 1) = _
            have hpl : pre.length = p1.length := by
              have := congrArg List.length f3; simpa using this.symm
            rw [← f3, g3, hpl, List.append_assoc]; rfl
          · simp
  · unfold bech32Decode
    rw [if_pos (by rw [maxBech32Size]; omega)]
    refine ⟨_, rfl, ?_, ?_⟩
    · simp only [Bool.false_eq_true, false_iff]
      rintro ⟨h1, hrp, data, hB⟩
      exact hlen ⟨bech32_length hB, h1⟩
    · intro hrp data hB h1
      exact absurd ⟨bech32_length hB, h1⟩ hlen

theorem good_lower {hrp : Bytes} (h : GoodHrp hrp) : hrp.map toLower = hrp := by
  conv => rhs; rw [← List.map_id hrp]
  apply List.map_congr_left
  intro c hc
  exact not_upper c (h c hc).2.2

theorem upper_facts (c : UInt8) (h : isUpper c = false) : toLower (toUpper c) = c ∧ isLower (toUpper c) = false := by
  revert h; revert c; apply forall_byte; decide +kernel

/-- The text made from a valid prefix and data, in lower or upper case, is a Bech32 text. -/
theorem bech32_make {hrp data sum : Bytes} (h0 : hrp ≠ []) (h1 : GoodHrp hrp) (h2 : ∀ v ∈ data, v < 32) (h3 : sum.length = 6)
    (h4 : ∀ v ∈ sum, v < 32) (h5 : polymod (hrpExpand hrp ++ (data ++ sum).map UInt8.toNat) = 1) :
    Bech32 (hrp ++ [0x31] ++ (data ++ sum).map bechChar) hrp data ∧
    Bech32 ((hrp ++ [0x31] ++ (data ++ sum).map bechChar).map toUpper) hrp data := by
  have hall : ∀ v ∈ data ++ sum, v < 32 := by
    intro v hv
    rcases List.mem_append.mp hv with hv | hv
    · exact h2 v hv
    · exact h4 v hv
  have hup : ∀ c ∈ hrp ++ [0x31] ++ (data ++ sum).map bechChar, isUpper c = false := by
    intro c hc
    rcases List.mem_append.mp hc with hc | hc
    · rcases List.mem_append.mp hc with hc | hc
      · exact (h1 c hc).2.2
      · simp only [List.mem_singleton] at hc; subst hc; rfl
    · obtain ⟨v, hv, rfl⟩ := List.mem_map.mp hc
      exact (bechChar_facts v (hall v hv)).2.1
  have hrange : ∀ c ∈ hrp, 33 ≤ c ∧ c ≤ 126 := fun c hc => ⟨(h1 c hc).1, (h1 c hc).2.1⟩
  generalize hT : hrp ++ [0x31] ++ (data ++ sum).map bechChar = T at *
  refine ⟨⟨⟨sum, h3, h4, ?_, h5⟩, h0, hrange, h2, ?_⟩, ⟨⟨sum, h3, h4, ?_, h5⟩, h0, hrange, h2, ?_⟩⟩
  · rw [hT]
    conv => rhs; rw [← List.map_id T]
    apply List.map_congr_left
    intro c hc
    exact not_upper c (hup c hc)
  · rw [upper_iff]
    rintro ⟨h, -⟩
    obtain ⟨c, hc, hc'⟩ := List.any_eq_true.mp h
    rw [hup c hc] at hc'
    cases hc'
  · rw [hT, List.map_map]
    conv => rhs; rw [← List.map_id T]
    apply List.map_congr_left
    intro c hc
    exact (upper_facts c (hup c hc)).1
  · rw [lower_iff]
    rintro ⟨-, h⟩
    obtain ⟨c, hc, hc'⟩ := List.any_eq_true.mp h
    obtain ⟨d, hd, rfl⟩ := List.mem_map.mp hc
    rw [(upper_facts d (hup d hd)).2] at hc'
    cases hc'

/-- Whatever `bech32_encode` produces is accepted by `bech32_decode`, in lower and in upper case,
and gives back prefix and data. -/
theorem C29_roundtrip (output out hrp data hb db : Bytes) (dl : Nat) (h0 : hrp ≠ [])
    (hout : hrp.length + 8 + data.length ≤ output.length)
    (he : bech32Encode output hrp data = .ok (true, out)) :
    ∃ text, out = text ++ 0 :: output.drop (text.length + 1) ∧
      (text.length < hb.length → text.length ≤ db.length → ∀ t, t = text ∨ t = text.map toUpper →
        ∃ r, bech32Decode hb db dl t = .ok r ∧ r.ret = true ∧ (∃ rest, r.hrp = hrp ++ 0 :: rest) ∧
          r.dataLen = data.length ∧ r.data.take r.dataLen = data) := by
  by_cases hgood : GoodHrp hrp ∧ (∀ v ∈ data, v < 32) ∧ hrp.length + 7 + data.length ≤ 1000
  · obtain ⟨h1, h2, h3⟩ := hgood
    obtain ⟨sum, g1, g2, g3, g4⟩ := bech32Encode_good output hrp data h1 h2 h3 hout
    rw [he] at g4
    simp only [C.ok.injEq, Prod.mk.injEq, true_and] at g4
    obtain ⟨hB1, hB2⟩ := bech32_make h0 h1 h2 g1 g2 g3
    have hl : (hrp ++ [0x31] ++ (data ++ sum).map bechChar).length = hrp.length + 7 + data.length := by
      simp [g1]; omega
    refine ⟨hrp ++ [0x31] ++ (data ++ sum).map bechChar, ?_, ?_⟩
    · rw [g4, hl, show hrp.length + 7 + data.length + 1 = hrp.length + 8 + data.length by omega]
      simp
    · intro k1 k2 t ht
      have hBt : Bech32 t hrp data := by rcases ht with rfl | rfl <;> assumption
      have htl : t.length = hrp.length + 7 + data.length := by
        rcases ht with rfl | rfl
        · exact hl
        · rw [List.length_map]; exact hl
      rw [hl] at k1 k2
      obtain ⟨r, e1, e2, e3⟩ := C29_decode_exact_partial hb db t dl (by omega) (by omega)
      have e4 := e3 hrp data hBt (by omega)
      exact ⟨r, e1, e2.mpr ⟨by omega, _, _, hBt⟩, e4.1, e4.2.1, e4.2.2⟩
  · obtain ⟨o, e⟩ := bech32Encode_bad output hrp data hgood hout
    rw [he] at e
    cases e

/-- `bech32_encode` succeeds exactly for a lower case prefix, 5-bit values and at most 1000 characters. -/
theorem C29_encode_accepts (output hrp data : Bytes) (hout : hrp.length + 8 + data.length ≤ output.length) :
    (∃ out, bech32Encode output hrp data = .ok (true, out)) ↔
      (∀ c ∈ hrp, 33 ≤ c ∧ c ≤ 126 ∧ ¬ (0x41 ≤ c ∧ c ≤ 0x5a)) ∧ (∀ v ∈ data, v < 32) ∧ hrp.length + 7 + data.length ≤ 1000 := by
  have hg : GoodHrp hrp ↔ ∀ c ∈ hrp, 33 ≤ c ∧ c ≤ 126 ∧ ¬ (0x41 ≤ c ∧ c ≤ 0x5a) := by
    unfold GoodHrp isUpper
    refine forall_congr' fun c => forall_congr' fun _ => and_congr_right fun _ => and_congr_right fun _ => ?_
    rw [← Bool.not_eq_true, Bool.and_eq_true, decide_eq_true_eq, decide_eq_true_eq]
  rw [← hg]
  constructor
  · rintro ⟨out, h⟩
    by_contra hc
    obtain ⟨o, e⟩ := bech32Encode_bad output hrp data hc hout
    rw [h] at e
    cases e
  · rintro ⟨h1, h2, h3⟩
    obtain ⟨sum, -, -, -, g4⟩ := bech32Encode_good output hrp data h1 h2 h3 hout
    exact ⟨_, g4⟩

example : ∃ out, bech32Encode (zeros 20) [98, 99] [1, 2, 3] = .ok (true, out) := ⟨_, rfl⟩

/-- The 90 character limit of BIP 173 is not enforced: a text of 208 characters is accepted. -/
theorem C29_limit_is_1000 : ∃ (text : Bytes) (r : Bech32Result), 90 < text.length ∧
    bech32Decode (zeros 300) (zeros 300) 0 text = .ok r ∧ r.ret = true := by
  have hd : ∀ v ∈ List.replicate 200 (0 : UInt8), v < 32 := by
    intro v hv; rw [List.eq_of_mem_replicate hv]; decide
  obtain ⟨sum, g1, g2, g3, g4⟩ := bech32Encode_good (zeros 300) [97] (List.replicate 200 0) (by decide) hd
    (by rw [List.length_replicate]; decide) (by rw [List.length_replicate, length_zeros]; decide)
  obtain ⟨hB1, -⟩ := bech32_make (by simp) (by decide) hd g1 g2 g3
  have hl : ([97] ++ [0x31] ++ (List.replicate 200 (0 : UInt8) ++ sum).map bechChar).length = 208 := by
    simp only [List.length_append, List.length_map, List.length_replicate, g1, List.length_cons, List.length_nil]
  obtain ⟨r, e1, e2, -⟩ := C29_decode_exact_partial (zeros 300) (zeros 300) _ 0 (by rw [hl, length_zeros]; decide)
    (by rw [hl, length_zeros]; decide)
  exact ⟨_, r, by rw [hl]; decide, e1, e2.mpr ⟨by rw [hl]; decide, _, _, hB1⟩⟩

/-- With the local buffers of `segwit_addr_decode` (84 characters each) a text without separator
overruns the prefix buffer. -/
theorem C29_no_separator_overruns (hb db : Bytes) (dl : Nat) (text : Bytes) (h31 : 0x31 ∉ text) (hr : ∀ c ∈ text, 33 ≤ c ∧ c ≤ 126)
    (hlen : 8 ≤ text.length ∧ text.length ≤ 1000) (hhb : hb.length < text.length) :
    bech32Decode hb db dl text = .ub := by
  unfold bech32Decode
  rw [if_neg (by rw [maxBech32Size]; omega)]
  simp only [nosep_len text h31]
  rw [if_neg (show ¬ 1 + text.length ≤ text.length by omega), if_neg (by omega)]
  rw [List.take_of_length_le (by simp; omega)]
  obtain ⟨s1, e1, e2⟩ := decHrp_until text 0 [] { chk := 1 } hr (by decide)
  simp only [e1, if_true, Bool.false_eq_true, not_false_eq_true]
  simp only [List.nil_append] at e2
  rw [e2, store, if_neg (by simp; omega)]
  rfl

example : bech32Decode (zeros 84) (zeros 84) 0 (List.replicate 90 0x62) = .ub :=
  C29_no_separator_overruns _ _ _ _ (by decide) (by decide) (by decide) (by decide)

/-! ### C30 -/

theorem stepZ_inj0 (c : Nat) (hc : c < 2 ^ 30) (h : stepZ c = 0) : c = 0 := by
  have htop : ∀ t < 32, stepZ (t * 2 ^ 25) % 32 = 0 → t = 0 := by decide +kernel
  have hlow : ∀ l < 2 ^ 25, stepZ l = l * 32 := by
    intro l hl
    have h25 : l >>> 25 = 0 := by rw [Nat.shiftRight_eq_div_pow]; omega
    have : l &&& 0x1ffffff = l := by
      have := Nat.and_two_pow_sub_one_eq_mod l 25
      simp only [Nat.reducePow, Nat.reduceSub] at this
      rw [this, Nat.mod_eq_of_lt (by omega)]
    simp [stepZ, h25, msk, this, Nat.shiftLeft_eq]
  have hsplit : c = c / 2 ^ 25 * 2 ^ 25 ^^^ c % 2 ^ 25 := by
    rw [xor_add _ _ _ (Nat.mod_lt _ (by decide))]; omega
  rw [hsplit, stepZ_xor, hlow _ (Nat.mod_lt _ (by decide))] at h
  have h2 : stepZ (c / 2 ^ 25 * 2 ^ 25) = c % 2 ^ 25 * 32 := by
    have := congrArg (· ^^^ (c % 2 ^ 25 * 32)) h
    simpa [Nat.xor_assoc] using this
  have h3 := htop (c / 2 ^ 25) (by omega) (by rw [h2]; omega)
  rw [h3, Nat.zero_mul, stepZ_zero] at h2
  omega

theorem run_zeros_ne (k : Nat) (c : Nat) (hc : c < 2 ^ 30) (h : c ≠ 0) : runZ c (List.replicate k 0) ≠ 0 := by
  induction k generalizing c with
  | zero => exact h
  | succ k ih =>
    rw [List.replicate_succ, runZ_cons, Nat.xor_zero]
    exact ih _ (stepZ_lt c) (fun h0 => h (stepZ_inj0 c hc h0))

/-- `n` further zero values never bring a single value back to a single value. -/
def neverSmall (c : Nat) : Nat → Bool
  | 0 => true
  | n + 1 => decide (32 ≤ stepZ c) && neverSmall (stepZ c) n

theorem neverSmall_spec (n c d : Nat) (h : neverSmall c n = true) (h1 : 1 ≤ d) (h2 : d ≤ n) :
    32 ≤ runZ c (List.replicate d 0) := by
  induction n generalizing c d with
  | zero => omega
  | succ n ih =>
    rw [neverSmall, Bool.and_eq_true, decide_eq_true_eq] at h
    obtain ⟨d, rfl⟩ : ∃ d', d = d' + 1 := ⟨d - 1, by omega⟩
    rw [List.replicate_succ, runZ_cons, Nat.xor_zero]
    by_cases hd : d = 0
    · subst hd; exact h.1
    · exact ih _ _ h.2 (by omega) (by omega)

theorem neverSmall_all : ∀ e < 32, e ≠ 0 → neverSmall e 1000 = true := by decide +kernel

theorem small_never (e d : Nat) (he : e < 32) (he0 : e ≠ 0) (h1 : 1 ≤ d) (h2 : d ≤ 1000) :
    32 ≤ runZ e (List.replicate d 0) := neverSmall_spec 1000 e d (neverSmall_all e he he0) h1 h2

theorem runZ_lt (c : Nat) (hc : c < 2 ^ 30) (vs : List Nat) (h : ∀ v ∈ vs, v < 32) : runZ c vs < 2 ^ 30 := by
  induction vs generalizing c with
  | nil => exact hc
  | cons v vs ih =>
    rw [runZ_cons]
    have := h v (by simp)
    exact ih _ (Nat.xor_lt_two_pow (stepZ_lt c) (by omega)) (fun w hw => h w (by simp [hw]))

theorem xor_eq_zero {a b : Nat} (h : a ^^^ b = 0) : a = b := by
  have := congrArg (· ^^^ b) h
  simpa [Nat.xor_assoc] using this

theorem xor_lt32 {a b : Nat} (ha : a < 32) (hb : b < 32) : a ^^^ b < 32 := Nat.xor_lt_two_pow (n := 5) ha hb

/-- Two value lists that differ in one place have different checksums. -/
theorem run_one (c : Nat) (a b : List Nat) (v w : Nat) (hv : v < 32) (hw : w < 32) (hne : v ≠ w) :
    runZ c (a ++ v :: b) ≠ runZ c (a ++ w :: b) := by
  intro h
  have h1 : runZ 0 (List.zipWith (· ^^^ ·) (v :: b) (w :: b)) = 0 := by
    have := runZ_xor (v :: b) (w :: b) (by simp) (runZ c a) (runZ c a)
    rw [Nat.xor_self] at this
    rw [this, ← runZ_append, ← runZ_append, h, Nat.xor_self]
  have h2 : List.zipWith (· ^^^ ·) b b = List.replicate b.length 0 := by
    apply List.ext_getElem <;> simp
  rw [List.zipWith_cons_cons, runZ_cons, stepZ_zero, Nat.zero_xor, h2] at h1
  exact run_zeros_ne _ _ (by have := xor_lt32 hv hw; omega) (fun h0 => hne (xor_eq_zero h0)) h1

/-- Two value lists of at most 1000 values that differ in exactly two places have different checksums. -/
theorem run_two (c : Nat) (a m b : List Nat) (v w v' w' : Nat) (hv : v < 32) (hw : w < 32) (hv' : v' < 32) (hw' : w' < 32)
    (hne : v ≠ w) (hm : m.length < 1000) :
    runZ c (a ++ v :: (m ++ v' :: b)) ≠ runZ c (a ++ w :: (m ++ w' :: b)) := by
  intro h
  have h1 : runZ 0 (List.zipWith (· ^^^ ·) (v :: (m ++ v' :: b)) (w :: (m ++ w' :: b))) = 0 := by
    have := runZ_xor (v :: (m ++ v' :: b)) (w :: (m ++ w' :: b)) (by simp) (runZ c a) (runZ c a)
    rw [Nat.xor_self] at this
    rw [this, ← runZ_append, ← runZ_append, h, Nat.xor_self]
  have hz : ∀ l : List Nat, List.zipWith (· ^^^ ·) l l = List.replicate l.length 0 := by
    intro l; apply List.ext_getElem <;> simp
  rw [List.zipWith_cons_cons, List.zipWith_append (by simp), List.zipWith_cons_cons, hz, hz, runZ_cons, stepZ_zero,
    Nat.zero_xor, runZ_append, runZ_cons] at h1
  have h2 : stepZ (runZ (v ^^^ w) (List.replicate m.length 0)) = runZ (v ^^^ w) (List.replicate (m.length + 1) 0) := by
    rw [List.replicate_succ', runZ_append, runZ_cons, runZ_nil, Nat.xor_zero]
  rw [h2] at h1
  have h3 := small_never (v ^^^ w) (m.length + 1) (xor_lt32 hv hw) (fun h0 => hne (xor_eq_zero h0)) (by omega) (by omega)
  have h4 := xor_lt32 hv' hw'
  refine run_zeros_ne _ _ ?_ ?_ h1
  · apply Nat.xor_lt_two_pow _ (by omega)
    exact runZ_lt _ (by have := xor_lt32 hv hw; omega) _ (by intro x hx; rw [List.eq_of_mem_replicate hx]; decide)
  · intro h0
    have := xor_eq_zero h0
    omega

/-- The values of the data part of a Bech32 text. -/
theorem bech32_values {text hrp data : Bytes} (h : Bech32 text hrp data) (pre suf vs : Bytes) (he : text = pre ++ 0x31 :: suf)
    (hv : List.Forall₂ IsVal suf vs) : hrp = pre.map toLower ∧ runZ 1 (hrpExpand (pre.map toLower) ++ vs.map UInt8.toNat) = 1 := by
  obtain ⟨p, s, sum, f1, f2, f3, f4, f5, f6⟩ := bech32_split h
  have h31 : 0x31 ∉ suf := by
    intro hm
    have h2 := ((forall2_iff _ _).mp hv)
    have : toLower 0x31 ∈ suf.map toLower := List.mem_map_of_mem hm
    rw [h2.2, List.mem_map] at this
    obtain ⟨v, hv, hv'⟩ := this
    exact (bechChar_facts v (h2.1 v hv)).1 hv'
  have e := f1.symm.trans he
  have hs : s.length = suf.length := by rw [← sep_len p s f2, e, sep_len pre suf h31]
  have hp : p.length = pre.length := by
    have := congrArg List.length e
    simp only [List.length_append, List.length_cons] at this
    omega
  obtain ⟨rfl, e7⟩ := List.append_inj e hp
  simp only [List.cons.injEq, true_and] at e7
  subst e7
  have := forall2_unique f5 hv
  subst this
  subst f3
  exact ⟨rfl, f6⟩

/-- Replacing one data character of a Bech32 text by a data character with another value gives a
text that `bech32_decode` refuses, whatever the length. -/
theorem C30_one (pre a b : Bytes) (c d v w : UInt8) (hrp data hb db : Bytes) (dl : Nat)
    (hB : Bech32 (pre ++ 0x31 :: (a ++ c :: b)) hrp data) (h31 : 0x31 ∉ a ++ c :: b)
    (hc : IsVal c v) (hd : IsVal d w) (hne : v ≠ w)
    (hhb : (pre ++ 0x31 :: (a ++ c :: b)).length < hb.length) (hdb : (pre ++ 0x31 :: (a ++ c :: b)).length ≤ db.length) :
    ∃ r, bech32Decode hb db dl (pre ++ 0x31 :: (a ++ d :: b)) = .ok r ∧ r.ret = false := by
  have hlen : (pre ++ 0x31 :: (a ++ d :: b)).length = (pre ++ 0x31 :: (a ++ c :: b)).length := by simp
  obtain ⟨r, e1, e2, -⟩ := C29_decode_exact_partial hb db (pre ++ 0x31 :: (a ++ d :: b)) dl (by omega) (by omega)
  refine ⟨r, e1, ?_⟩
  rw [← Bool.not_eq_true, e2]
  rintro ⟨-, hrp', data', hB'⟩
  obtain ⟨p, s, sum, f1, f2, f3, f4, f5, f6⟩ := bech32_split hB
  have hs : s.length = (a ++ c :: b).length := by rw [← sep_len p s f2, ← f1, sep_len pre _ h31]
  have hp : pre.length = p.length := by
    have := congrArg List.length f1
    simp only [List.length_append, List.length_cons] at this hs
    omega
  obtain ⟨rfl, e7⟩ := List.append_inj f1 hp
  simp only [List.cons.injEq, true_and] at e7
  subst e7
  obtain ⟨va, vb, hva, hvb, evs⟩ : ∃ va vb, List.Forall₂ IsVal a va ∧ List.Forall₂ IsVal b vb ∧ data ++ sum = va ++ v :: vb := by
    have h1 := List.forall₂_take_append (data ++ sum) a (c :: b) f5.flip
    have h2 := List.forall₂_drop_append (data ++ sum) a (c :: b) f5.flip
    cases hx : (data ++ sum).drop a.length with
    | nil => rw [hx] at h2; cases h2
    | cons y ys =>
      rw [hx] at h2
      cases h2 with
      | cons h3 h4 =>
        have := isVal_unique hc h3
        subst this
        exact ⟨_, ys, h1.flip, h4.flip, by rw [← hx, List.take_append_drop]⟩
  have g1 := (bech32_values hB pre _ (va ++ v :: vb) rfl (List.rel_append hva (.cons hc hvb))).2
  have g2 := (bech32_values hB' pre _ (va ++ w :: vb) rfl (List.rel_append hva (.cons hd hvb))).2
  simp only [List.map_append, List.map_cons, ← List.append_assoc] at g1 g2
  have lt (x : UInt8) (h : x < 32) : x.toNat < 32 := by rw [UInt8.lt_iff_toNat_lt] at h; simpa using h
  exact run_one 1 _ _ v.toNat w.toNat (lt v hc.1) (lt w hd.1) (fun h => hne (UInt8.toNat_inj.mp h)) (g1.trans g2.symm)

/-- Replacing two data characters of a Bech32 text of at most 1000 characters by data characters, of
which the first has another value, gives a text that `bech32_decode` refuses. -/
theorem C30_two (pre a m b : Bytes) (c d v w c' d' v' w' : UInt8) (hrp data hb db : Bytes) (dl : Nat)
    (hB : Bech32 (pre ++ 0x31 :: (a ++ c :: (m ++ c' :: b))) hrp data) (h31 : 0x31 ∉ a ++ c :: (m ++ c' :: b))
    (hc : IsVal c v) (hd : IsVal d w) (hc' : IsVal c' v') (hd' : IsVal d' w') (hne : v ≠ w)
    (hlen1000 : (pre ++ 0x31 :: (a ++ c :: (m ++ c' :: b))).length ≤ 1000)
    (hhb : (pre ++ 0x31 :: (a ++ c :: (m ++ c' :: b))).length < hb.length)
    (hdb : (pre ++ 0x31 :: (a ++ c :: (m ++ c' :: b))).length ≤ db.length) :
    ∃ r, bech32Decode hb db dl (pre ++ 0x31 :: (a ++ d :: (m ++ d' :: b))) = .ok r ∧ r.ret = false := by
  have hlen : (pre ++ 0x31 :: (a ++ d :: (m ++ d' :: b))).length = (pre ++ 0x31 :: (a ++ c :: (m ++ c' :: b))).length := by simp
  obtain ⟨r, e1, e2, -⟩ := C29_decode_exact_partial hb db (pre ++ 0x31 :: (a ++ d :: (m ++ d' :: b))) dl (by omega) (by omega)
  refine ⟨r, e1, ?_⟩
  rw [← Bool.not_eq_true, e2]
  rintro ⟨-, hrp', data', hB'⟩
  obtain ⟨p, s, sum, f1, f2, f3, f4, f5, f6⟩ := bech32_split hB
  have hs : s.length = (a ++ c :: (m ++ c' :: b)).length := by rw [← sep_len p s f2, ← f1, sep_len pre _ h31]
  have hp : pre.length = p.length := by
    have := congrArg List.length f1
    simp only [List.length_append, List.length_cons] at this hs
    omega
  obtain ⟨rfl, e7⟩ := List.append_inj f1 hp
  simp only [List.cons.injEq, true_and] at e7
  subst e7
  have split1 : ∀ (x : UInt8) (u : UInt8) (a b vs : Bytes), IsVal x u → List.Forall₂ IsVal (a ++ x :: b) vs →
      ∃ va vb, List.Forall₂ IsVal a va ∧ List.Forall₂ IsVal b vb ∧ vs = va ++ u :: vb := by
    intro x u a b vs hx f5
    have h1 := List.forall₂_take_append vs a (x :: b) f5.flip
    have h2 := List.forall₂_drop_append vs a (x :: b) f5.flip
    cases hxx : vs.drop a.length with
    | nil => rw [hxx] at h2; cases h2
    | cons y ys =>
      rw [hxx] at h2
      cases h2 with
      | cons h3 h4 =>
        have := isVal_unique hx h3
        subst this
        exact ⟨_, ys, h1.flip, h4.flip, by rw [← hxx, List.take_append_drop]⟩
  obtain ⟨va, vb, hva, hvb, evs⟩ := split1 c v a _ _ hc f5
  obtain ⟨vm, vb', hvm, hvb', rfl⟩ := split1 c' v' m b _ hc' hvb
  have hml : vm.length < 1000 := by
    have := hvm.length_eq
    simp only [List.length_append, List.length_cons] at hlen1000
    omega
  have g1 := (bech32_values hB pre _ (va ++ v :: (vm ++ v' :: vb')) rfl
    (List.rel_append hva (.cons hc (List.rel_append hvm (.cons hc' hvb'))))).2
  have g2 := (bech32_values hB' pre _ (va ++ w :: (vm ++ w' :: vb')) rfl
    (List.rel_append hva (.cons hd (List.rel_append hvm (.cons hd' hvb'))))).2
  rw [List.map_append, List.map_cons, List.map_append, List.map_cons, ← List.append_assoc] at g1 g2
  have lt (x : UInt8) (h : x < 32) : x.toNat < 32 := by rw [UInt8.lt_iff_toNat_lt] at h; simpa using h
  exact run_two 1 _ _ _ v.toNat w.toNat v'.toNat w'.toNat (lt v hc.1) (lt w hd.1) (lt v' hc'.1) (lt w' hd'.1)
    (fun h => hne (UInt8.toNat_inj.mp h)) (by rw [List.length_map]; exact hml) (g1.trans g2.symm)

/-- BIP 173 test vector "a12uel5l". -/
theorem exBech32 : Bech32 ([97] ++ 0x31 :: [50, 117, 101, 108, 53, 108]) [97] [] :=
  (bech32_make (hrp := [97]) (data := []) (sum := [10, 28, 25, 31, 20, 31]) (by decide) (by decide) (by decide) (by decide) (by decide)
    (by decide +kernel)).1

example : ∃ r, bech32Decode (zeros 84) (zeros 84) 0 ([97] ++ 0x31 :: ([50, 117] ++ 113 :: [108, 53, 108])) = .ok r ∧ r.ret = false :=
  C30_one [97] [50, 117] [108, 53, 108] 101 113 25 0 [97] [] (zeros 84) (zeros 84) 0 exBech32 (by decide) (by decide) (by decide)
    (by decide) (by decide) (by decide)

example : ∃ r, bech32Decode (zeros 84) (zeros 84) 0 ([97] ++ 0x31 :: ([50] ++ 101 :: ([] ++ 117 :: [108, 53, 108]))) = .ok r ∧ r.ret = false :=
  C30_two [97] [50] [] [108, 53, 108] 117 101 28 25 101 117 25 28 [97] [] (zeros 84) (zeros 84) 0 exBech32 (by decide) (by decide)
    (by decide) (by decide) (by decide) (by decide) (by decide) (by decide) (by decide)

end UB
