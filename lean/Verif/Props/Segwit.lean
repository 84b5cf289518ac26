import Verif.Props.Bech32
import Verif.Lemmas.ConvertBits

/-
C31 segwit addresses.
-/

namespace UB
open Spec

theorem lt32 {v : UInt8} : v < 32 ↔ v.toNat < 2 ^ 5 := by
  rw [UInt8.lt_iff_toNat_lt]; rfl

theorem lt256 (v : UInt8) : v.toNat < 2 ^ 8 := v.toNat_lt

/-- The data values of a program are unique. -/
theorem data_unique {d d' p : Bytes} {pad pad' : Nat} (hd : ∀ v ∈ d, v < 32) (hd' : ∀ v ∈ d', v < 32) (hp : pad < 5) (hp' : pad' < 5)
    (h : groups5 d = groups8 p ++ List.replicate pad false) (h' : groups5 d' = groups8 p ++ List.replicate pad' false) : d = d' := by
  have l := congrArg List.length h
  have l' := congrArg List.length h'
  simp only [groups5_eq, groups8_eq, length_groups, List.length_append, List.length_replicate] at l l'
  have : pad = pad' := by omega
  subst this
  exact groups_inj 5 d d' (fun x hx => lt32.mp (hd x hx)) (fun x hx => lt32.mp (hd' x hx)) (by omega) (h.trans h'.symm)

/-- The program of data values is unique. -/
theorem prog_unique {d p p' : Bytes} {pad pad' : Nat} (hp : pad < 5) (hp' : pad' < 5)
    (h : groups5 d = groups8 p ++ List.replicate pad false) (h' : groups5 d = groups8 p' ++ List.replicate pad' false) : p = p' := by
  have l := congrArg List.length h
  have l' := congrArg List.length h'
  simp only [groups5_eq, groups8_eq, length_groups, List.length_append, List.length_replicate] at l l'
  obtain ⟨h1, -⟩ := List.append_inj (h.symm.trans h') (by simp only [groups8_eq, length_groups]; omega)
  exact groups_inj 8 p p' (fun x _ => lt256 x) (fun x _ => lt256 x) (by omega) h1

theorem byte_int (ver : Nat) (h : ver ≤ 16) : UInt8.ofNat ((ver : Int) % 256).toNat = UInt8.ofNat ver := by
  congr 1; omega

/-- As `C31_encode`; moreover the text is in lower case and starts with the prefix. -/
theorem segwitEncode_form (output hrp : Bytes) (ver : Nat) (prog : Bytes) (h0 : hrp ≠ []) (h1 : GoodHrp hrp) (hv : ver ≤ 16)
    (hp : ProgramLength ver prog.length) (hh : hrp.length ≤ 83) (ho : hrp.length + 9 + (prog.length * 8 + 4) / 5 ≤ output.length) :
    ∃ text, segwitAddrEncode output hrp ver prog = .ok (true, text ++ 0 :: output.drop (text.length + 1)) ∧
      SegwitAddress text hrp ver prog ∧ text.length = hrp.length + 8 + (prog.length * 8 + 4) / 5 ∧
      (∃ r, text = hrp ++ 0x31 :: r) ∧ text.map toLower = text := by
  obtain ⟨data, e1, e2, pad, e3, e4⟩ := convertBits_pad 5 8 (by decide) (by decide) (by decide) prog (fun x _ => lt256 x)
  have hdl : data.length = (prog.length * 8 + 4) / 5 := by
    have := congrArg List.length e4
    simp only [length_groups, List.length_append, List.length_replicate] at this
    omega
  obtain ⟨hp1, hp2, hp3⟩ := hp
  have hall : ∀ v ∈ UInt8.ofNat ver :: data, v < 32 := by
    intro v hv'
    rcases List.mem_cons.mp hv' with rfl | hv'
    · rw [lt32, UInt8.toNat_ofNat']
      show ver % 256 < 32
      omega
    · exact lt32.mpr (e2 v hv')
  obtain ⟨sum, g1, g2, g3, g4⟩ := bech32Encode_good output hrp (UInt8.ofNat ver :: data) h1 hall
    (by simp only [List.length_cons]; omega) (by simp only [List.length_cons]; omega)
  obtain ⟨hB1, -⟩ := bech32_make h0 h1 hall g1 g2 g3
  have htl : (hrp ++ [0x31] ++ ((UInt8.ofNat ver :: data) ++ sum).map bechChar).length = hrp.length + 8 + data.length := by
    simp only [List.length_append, List.length_map, List.length_cons, List.length_nil, g1]; omega
  refine ⟨hrp ++ [0x31] ++ ((UInt8.ofNat ver :: data) ++ sum).map bechChar, ?_, ⟨hv, ⟨hp1, hp2, hp3⟩, data, hB1, pad, e3, e4⟩, ?_⟩
  · unfold segwitAddrEncode
    rw [if_neg (by omega), if_neg (by
      rintro ⟨h, h2, h3⟩
      rcases hp3 (by omega) with h | h <;> omega), if_neg (by omega)]
    simp only [e1, byte_int ver hv]
    rw [store_zero _ _ (by rw [length_zeros]; simp only [List.length_cons]; omega)]
    simp only [C.bind_ok]
    rw [List.take_append_of_le_length (by simp), List.take_of_length_le (by simp), g4]
    rw [htl, List.length_cons, show hrp.length + 8 + (data.length + 1) = hrp.length + 8 + data.length + 1 by omega]
    simp
  · refine ⟨by rw [htl, hdl], ⟨_, by rw [List.append_assoc]; rfl⟩, ?_⟩
    rw [List.map_append, List.map_append, good_lower h1, List.map_map]
    congr 1
    apply List.map_congr_left
    intro v hv
    refine (bechChar_facts v ?_).2.2.2.1
    rcases List.mem_append.mp hv with hv | hv
    · exact hall v hv
    · exact g2 v hv

/-- Encoding a witness version and program of a permitted length gives their segwit address. -/
theorem C31_encode (output hrp : Bytes) (ver : Nat) (prog : Bytes) (h0 : hrp ≠ []) (h1 : GoodHrp hrp) (hv : ver ≤ 16)
    (hp : ProgramLength ver prog.length) (hh : hrp.length ≤ 83) (ho : hrp.length + 73 ≤ output.length) :
    ∃ text, segwitAddrEncode output hrp ver prog = .ok (true, text ++ 0 :: output.drop (text.length + 1)) ∧
      SegwitAddress text hrp ver prog ∧ text.length = hrp.length + 8 + (prog.length * 8 + 4) / 5 := by
  obtain ⟨text, e1, e2, e3, -⟩ := segwitEncode_form output hrp ver prog h0 h1 hv hp hh (by have := hp.2.1; omega)
  exact ⟨text, e1, e2, e3⟩

/-- A text is a Bech32 text in one way only. -/
theorem bech32_unique {text h h' d d' : Bytes} (hB : Bech32 text h d) (hB' : Bech32 text h' d') : h = h' ∧ d = d' := by
  obtain ⟨p1, s1, m1, f1, f2, f3, f4, f5, -⟩ := bech32_split hB
  obtain ⟨p2, s2, m2, g1, g2, g3, g4, g5, -⟩ := bech32_split hB'
  have hs : s1.length = s2.length := by
    rw [← sep_len p1 s1 f2, ← f1, g1, sep_len p2 s2 g2]
  have hp : p1.length = p2.length := by
    have := congrArg List.length (f1.symm.trans g1)
    simp only [List.length_append, List.length_cons] at this
    omega
  obtain ⟨rfl, e7⟩ := List.append_inj (f1.symm.trans g1) hp
  simp only [List.cons.injEq, true_and] at e7
  subst e7
  have hds := forall2_unique f5 g5
  exact ⟨f3.symm.trans g3, (List.append_inj' hds (by rw [f4, g4])).1⟩

theorem six_value (a b c d e f : Nat) (ha : a < 32) (hb : b < 32) (hc : c < 32) (hd : d < 32) (he : e < 32) (hf : f < 32) :
    runZ 0 [a, b, c, d, e, f] = a * 33554432 + b * 1048576 + c * 32768 + d * 1024 + e * 32 + f := by
  have e1 := six_digits (a * 33554432 + b * 1048576 + c * 32768 + d * 1024 + e * 32 + f) (by omega)
  generalize ht : a * 33554432 + b * 1048576 + c * 32768 + d * 1024 + e * 32 + f = t at e1 ⊢
  rw [show t / 33554432 = a by omega, show t / 1048576 % 32 = b by omega, show t / 32768 % 32 = c by omega,
    show t / 1024 % 32 = d by omega, show t / 32 % 32 = e by omega, show t % 32 = f by omega] at e1
  rw [runZ_six a b c d e f ha hb hc hd he, e1]

theorem length_six {l : Bytes} (h : l.length = 6) : ∃ a b c d e f, l = [a, b, c, d, e, f] := by
  match l, h with
  | [a, b, c, d, e, f], _ => exact ⟨a, b, c, d, e, f, rfl⟩

/-- The checksum is determined by prefix and data. -/
theorem checksum_unique (x : List Nat) (s s' : Bytes) (hs : s.length = 6) (hs' : s'.length = 6) (h : ∀ v ∈ s, v < 32)
    (h' : ∀ v ∈ s', v < 32) (e : polymod (x ++ s.map UInt8.toNat) = 1) (e' : polymod (x ++ s'.map UInt8.toNat) = 1) : s = s' := by
  have r : runZ (runZ 1 x) (s.map UInt8.toNat) = runZ (runZ 1 x) (s'.map UInt8.toNat) := by
    rw [← runZ_append, ← runZ_append]; exact e.trans e'.symm
  rw [runZ_split, runZ_split _ (s'.map UInt8.toNat), List.length_map, List.length_map, hs, hs'] at r
  have r2 : runZ 0 (s.map UInt8.toNat) = runZ 0 (s'.map UInt8.toNat) := by
    have := congrArg (runZ (runZ 1 x) (List.replicate 6 0) ^^^ ·) r
    simpa only [← Nat.xor_assoc, Nat.xor_self, Nat.zero_xor] using this
  obtain ⟨a, b, c, d, e, f, rfl⟩ := length_six hs
  obtain ⟨a', b', c', d', e', f', rfl⟩ := length_six hs'
  simp only [List.mem_cons, List.not_mem_nil, or_false, forall_eq_or_imp, forall_eq, lt32] at h h'
  obtain ⟨h1, h2, h3, h4, h5, h6⟩ := h
  obtain ⟨g1, g2, g3, g4, g5, g6⟩ := h'
  simp only [List.map_cons, List.map_nil] at r2
  rw [six_value _ _ _ _ _ _ h1 h2 h3 h4 h5 h6, six_value _ _ _ _ _ _ g1 g2 g3 g4 g5 g6] at r2
  simp only [List.cons.injEq, and_true, ← UInt8.toNat_inj]
  omega

/-- Version and program have one address, up to letter case. -/
theorem segwit_text_unique {t t' hrp prog : Bytes} {v : Nat} (h : SegwitAddress t hrp v prog) (h' : SegwitAddress t' hrp v prog) :
    t.map toLower = t'.map toLower := by
  obtain ⟨-, -, d, hB, pad, p1, p2⟩ := h
  obtain ⟨-, -, d', hB', pad', p1', p2'⟩ := h'
  have hd : d = d' := data_unique (fun x hx => hB.values x (by simp [hx])) (fun x hx => hB'.values x (by simp [hx])) p1 p1' p2 p2'
  subst hd
  obtain ⟨s, s1, s2, s3, s4⟩ := hB.form
  obtain ⟨s', s1', s2', s3', s4'⟩ := hB'.form
  rw [List.map_append, ← List.append_assoc] at s4 s4'
  have : s = s' := checksum_unique _ s s' s1 s1' s2 s2' s4 s4'
  rw [s3, s3', this]

theorem cstr_hrp (hrp rest : Bytes) (h : ∀ c ∈ hrp, 33 ≤ c ∧ c ≤ 126) : cstr (hrp ++ 0 :: rest) = hrp := by
  unfold cstr
  rw [List.takeWhile_append_of_pos]
  · simp
  · intro x hx
    simp only [decide_eq_true_eq]
    rintro rfl
    exact absurd (h 0 hx).1 (by decide)

/-- `segwit_addr_decode` seen through what `bech32_decode` returned. -/
theorem segwitDecode_of (ver : Int) (buf : Bytes) (len : Nat) (hrp text ahrp data rest1 rest2 : Bytes)
    (hbuf : 40 ≤ buf.length ∨ (text.length - (hrp.length + 8)) * 5 / 8 ≤ buf.length ∨ ¬ ∃ d, Bech32 text hrp d)
    (hB : Bech32 text ahrp data) (hA : ahrp.length ≤ 83)
    (h : bech32Decode (zeros 84) (zeros 84) 0 text = .ok ⟨true, ahrp ++ 0 :: rest1, data ++ rest2, data.length⟩) :
    ∃ r, segwitAddrDecode ver buf len hrp text = .ok r ∧
      (r.ret = true ↔ ∃ v prog, SegwitAddress text hrp v prog) ∧
      (∀ v prog, SegwitAddress text hrp v prog → r.ver = v ∧ r.progLen = prog.length ∧ r.prog.take r.progLen = prog) := by
  have uniq : ∀ v prog, SegwitAddress text hrp v prog → hrp = ahrp ∧ ∃ d, data = UInt8.ofNat v :: d ∧
      ∃ pad < 5, groups5 d = groups8 prog ++ List.replicate pad false := by
    rintro v prog ⟨h1, h2, d, hB', pad, h3, h4⟩
    obtain ⟨rfl, rfl⟩ := bech32_unique hB hB'
    exact ⟨rfl, d, rfl, pad, h3, h4⟩
  have hno : ∀ r : SegwitResult, r.ret = false → (¬ ∃ v prog, SegwitAddress text hrp v prog) →
      (r.ret = true ↔ ∃ v prog, SegwitAddress text hrp v prog) ∧
      (∀ v prog, SegwitAddress text hrp v prog → r.ver = v ∧ r.progLen = prog.length ∧ r.prog.take r.progLen = prog) := by
    intro r hr hn
    refine ⟨by rw [hr]; simp only [Bool.false_eq_true, false_iff]; exact hn, fun v prog hS => absurd ⟨v, prog, hS⟩ hn⟩
  unfold segwitAddrDecode
  simp only [h, C.bind_ok, not_true_eq_false, if_false]
  by_cases hdl : data.length = 0 ∨ data.length > 65
  · rw [if_pos hdl]
    refine ⟨_, rfl, hno _ rfl ?_⟩
    rintro ⟨v, prog, hS⟩
    obtain ⟨-, d, rfl, pad, h3, h4⟩ := uniq v prog hS
    have := congrArg List.length h4
    obtain ⟨-, ⟨-, h5, -⟩, -⟩ := hS
    simp only [groups5_eq, groups8_eq, length_groups, List.length_append, List.length_replicate] at this
    simp only [List.length_cons] at hdl
    omega
  rw [if_neg hdl]
  rw [cstr_hrp ahrp rest1 hB.hrp_range]
  by_cases hhrp : hrp.take 84 ≠ ahrp.take 84
  · rw [if_pos hhrp]
    refine ⟨_, rfl, hno _ rfl ?_⟩
    rintro ⟨v, prog, hS⟩
    exact hhrp (by rw [(uniq v prog hS).1])
  rw [if_neg hhrp]
  simp only [ne_eq, Decidable.not_not] at hhrp
  have hEq : hrp = ahrp := by
    rw [List.take_of_length_le (by omega : ahrp.length ≤ 84)] at hhrp
    have h2 := congrArg List.length hhrp
    rw [List.length_take] at h2
    rwa [List.take_of_length_le (by omega)] at hhrp
  subst hEq
  obtain ⟨d0, d, rfl⟩ : ∃ d0 d, data = d0 :: d := by
    cases data with
    | nil => simp at hdl
    | cons a b => exact ⟨a, b, rfl⟩
  simp only [List.cons_append, List.getD_cons_zero, List.length_cons, List.take_succ_cons, List.drop_succ_cons, List.drop_zero]
  rw [show (d ++ rest2).take d.length = d by simp]
  by_cases h16 : d0 > 16
  · rw [if_pos h16]
    refine ⟨_, rfl, hno _ rfl ?_⟩
    rintro ⟨v, prog, hS⟩
    obtain ⟨-, d', h2, -⟩ := uniq v prog hS
    simp only [List.cons.injEq] at h2
    rw [h2.1, gt_iff_lt, UInt8.lt_iff_toNat_lt, UInt8.toNat_ofNat'] at h16
    have h3 : 16 < v % 256 := h16
    have := hS.1
    omega
  rw [if_neg h16]
  have hd5 : ∀ x ∈ d, x.toNat < 2 ^ 5 := fun x hx => lt32.mp (hB.values x (by simp [hx]))
  obtain ⟨out, pend, e1, e2, e3, e4, e5⟩ := convertBits_nopad 8 5 (by decide) (by decide) (by decide) d hd5
  have hol : out.length ≤ 40 := by
    have := congrArg List.length e4
    simp only [length_groups, List.length_append] at this
    simp only [List.length_cons] at hdl
    omega
  have hob : out.length ≤ buf.length := by
    rcases hbuf with hbuf | hbuf | hbuf
    · omega
    · have h1 := congrArg List.length e4
      obtain ⟨p1, s1, m1, f1, f2, f3, f4, f5, -⟩ := bech32_split hB
      have h2 := congrArg List.length f1
      have h3 := congrArg List.length f3
      have h4 := f5.length_eq
      simp only [length_groups, List.length_append, List.length_cons, List.length_map] at h1 h2 h3 h4
      omega
    · exact absurd ⟨_, hB⟩ hbuf
  rw [e1, store_zero _ _ hob]
  simp only [C.bind_ok]
  have back : ∀ v prog, SegwitAddress text hrp v prog → (convertBits 8 d 5 false).1 = true ∧ prog = out ∧ UInt8.ofNat v = d0 := by
    intro v prog hS
    obtain ⟨-, d', h2, pad, h3, h4⟩ := uniq v prog hS
    simp only [List.cons.injEq] at h2
    obtain ⟨h2, rfl⟩ := h2
    have hl := congrArg List.length h4
    have hl2 := congrArg List.length e4
    simp only [groups5_eq, groups8_eq, length_groups, List.length_append, List.length_replicate] at hl hl2
    have h4' : groups 8 prog ++ List.replicate pad false = groups 8 out ++ pend := by
      rw [← e4]; exact h4.symm
    have hlen : prog.length = out.length := by omega
    obtain ⟨h5, h6⟩ := List.append_inj h4' (by rw [length_groups, length_groups, hlen])
    refine ⟨e5.mpr ⟨by rw [← h6, List.length_replicate]; omega, by rw [← h6, List.length_replicate]⟩, ?_, h2.symm⟩
    exact groups_inj 8 prog out (fun x _ => lt256 x) (fun x _ => lt256 x) hlen h5
  by_cases hfine : (convertBits 8 d 5 false).1 = true
  · simp only [hfine, not_true_eq_false, if_false]
    obtain ⟨p1, p2⟩ := e5.mp hfine
    by_cases hl : out.length < 2 ∨ out.length > 40
    · rw [if_pos hl]
      refine ⟨_, rfl, hno _ rfl ?_⟩
      rintro ⟨v, prog, hS⟩
      obtain ⟨-, rfl, -⟩ := back v prog hS
      obtain ⟨-, ⟨h6, h7, -⟩, -⟩ := hS
      omega
    rw [if_neg hl]
    by_cases hz : d0 = 0 ∧ out.length ≠ 20 ∧ out.length ≠ 32
    · rw [if_pos hz]
      refine ⟨_, rfl, hno _ rfl ?_⟩
      rintro ⟨v, prog, hS⟩
      obtain ⟨-, rfl, h2⟩ := back v prog hS
      obtain ⟨h9, ⟨h6, h7, h8⟩, -⟩ := hS
      have hv0 : v = 0 := by
        rw [hz.1] at h2
        have := congrArg UInt8.toNat h2
        rw [UInt8.toNat_ofNat'] at this
        have h10 : v % 256 = 0 := this
        omega
      rcases h8 hv0 with h | h <;> omega
    rw [if_neg hz]
    refine ⟨_, rfl, ?_, ?_⟩
    · simp only [true_iff]
      refine ⟨d0.toNat, out, ?_, ⟨by omega, by omega, ?_⟩, d, ?_, pend.length, p1, ?_⟩
      · rw [gt_iff_lt, UInt8.not_lt, UInt8.le_iff_toNat_le] at h16
        exact h16
      · intro h0
        have : d0 = 0 := UInt8.toNat_inj.mp (by simpa using h0)
        rw [not_and, not_and_or] at hz
        have := hz this
        omega
      · rw [show UInt8.ofNat d0.toNat = d0 by simp]
        exact hB
      · rw [← p2]; exact e4
    · intro v prog hS
      obtain ⟨-, rfl, h2⟩ := back v prog hS
      refine ⟨?_, rfl, by simp⟩
      have h3 := hS.1
      rw [← h2]
      simp only [UInt8.toNat_ofNat']
      rw [Nat.mod_eq_of_lt (by omega)]
  · simp only [hfine, not_false_eq_true, if_true]
    refine ⟨_, rfl, hno _ rfl ?_⟩
    rintro ⟨v, prog, hS⟩
    exact hfine (back v prog hS).1

theorem segwit_bech32 {text hrp prog : Bytes} {v : Nat} (h : SegwitAddress text hrp v prog) : ∃ h d, Bech32 text h d :=
  ⟨hrp, _, h.2.2.choose_spec.1⟩

/-- As `C31_decode_exact_partial`, with a buffer that need only be large enough for this text. -/
theorem segwitDecode_exact (ver : Int) (buf : Bytes) (len : Nat) (hrp text : Bytes) 
    (hbuf : 40 ≤ buf.length ∨ (text.length - (hrp.length + 8)) * 5 / 8 ≤ buf.length ∨ ¬ ∃ d, Bech32 text hrp d)
    (ht : text.length ≤ 84 ∨ (0x31 ∈ text ∧ text.length ≤ 90)) :
    ∃ r, segwitAddrDecode ver buf len hrp text = .ok r ∧
      (r.ret = true ↔ ∃ v prog, SegwitAddress text hrp v prog) ∧
      (∀ v prog, SegwitAddress text hrp v prog → r.ver = v ∧ r.progLen = prog.length ∧ r.prog.take r.progLen = prog) := by
  have refused : ∀ r, bech32Decode (zeros 84) (zeros 84) 0 text = .ok r → r.ret = false → (¬ ∃ h d, Bech32 text h d) →
      ∃ r, segwitAddrDecode ver buf len hrp text = .ok r ∧
      (r.ret = true ↔ ∃ v prog, SegwitAddress text hrp v prog) ∧
      (∀ v prog, SegwitAddress text hrp v prog → r.ver = v ∧ r.progLen = prog.length ∧ r.prog.take r.progLen = prog) := by
    intro r h1 h2 h3
    unfold segwitAddrDecode
    simp only [h1, C.bind_ok, h2, Bool.false_eq_true, not_false_eq_true, if_true]
    refine ⟨_, rfl, ?_, ?_⟩
    · simp only [Bool.false_eq_true, false_iff]
      rintro ⟨v, prog, hS⟩
      exact h3 (segwit_bech32 hS)
    · intro v prog hS
      exact absurd (segwit_bech32 hS) h3
  by_cases h8 : text.length < 8
  · apply refused ⟨false, zeros 84, zeros 84, 0⟩ _ rfl
    · rintro ⟨h, d, hB⟩
      have := bech32_length hB
      omega
    · unfold bech32Decode
      rw [if_pos (.inl h8)]; rfl
  rcases split_sep text with h31 | ⟨pre, suf, rfl, h31⟩
  · obtain ⟨r, e1, e2⟩ := decode_nosep (zeros 84) (zeros 84) 0 text h31
      ⟨by omega, by rcases ht with ht | ht <;> omega⟩
      (by rcases ht with ht | ht
          · rw [length_zeros]; exact ht
          · exact absurd ht.1 h31)
    apply refused r e1 e2
    rintro ⟨h, d, hB⟩
    exact h31 (bech32_has_sep hB)
  · have hL : (pre ++ 0x31 :: suf).length = pre.length + 1 + suf.length := by simp; omega
    rw [hL] at ht h8
    have ht' : pre.length + 1 + suf.length ≤ 90 := by rcases ht with ht | ht <;> omega
    rcases decode_sep (zeros 84) (zeros 84) 0 pre suf h31 ⟨by omega, by omega⟩ (fun _ => by rw [length_zeros]; omega)
      (by rw [length_zeros]; omega) with ⟨r, e1, e2, e3⟩ | ⟨data, hB, e2, e3⟩
    · exact refused r e1 e2 e3
    · refine segwitDecode_of ver buf len hrp _ (pre.map toLower) data ((zeros 84).drop (pre.length + 1)) ((zeros 84).drop data.length) hbuf hB ?_ ?_
      · rw [List.length_map]; omega
      · rw [e3, List.append_assoc]; rfl

/-- For texts of at most 90 characters with a separator (or at most 84 without), and room for a
40-byte program, `segwit_addr_decode` stays inside its buffers, accepts exactly the segwit addresses
with the given prefix and returns version and program.
Missing: longer texts, where the code writes outside its local buffers (`C31_long_data_overruns`,
`C29_no_separator_overruns`). -/
theorem C31_decode_exact_partial (ver : Int) (buf : Bytes) (len : Nat) (hrp text : Bytes) (hbuf : 40 ≤ buf.length)
    (ht : text.length ≤ 84 ∨ (0x31 ∈ text ∧ text.length ≤ 90)) :
    ∃ r, segwitAddrDecode ver buf len hrp text = .ok r ∧
      (r.ret = true ↔ ∃ v prog, SegwitAddress text hrp v prog) ∧
      (∀ v prog, SegwitAddress text hrp v prog → r.ver = v ∧ r.progLen = prog.length ∧ r.prog.take r.progLen = prog) :=
  segwitDecode_exact ver buf len hrp text (.inl hbuf) ht

/-- Decoding what was encoded gives back version and program. -/
theorem C31_roundtrip (output hrp prog buf : Bytes) (ver : Nat) (v0 : Int) (len : Nat) (h0 : hrp ≠ []) (h1 : GoodHrp hrp) (hv : ver ≤ 16)
    (hp : ProgramLength ver prog.length) (hh : hrp.length ≤ 18) (ho : hrp.length + 73 ≤ output.length) (hbuf : 40 ≤ buf.length) :
    ∃ text, segwitAddrEncode output hrp ver prog = .ok (true, text ++ 0 :: output.drop (text.length + 1)) ∧
      ∃ r, segwitAddrDecode v0 buf len hrp text = .ok r ∧ r.ret = true ∧ r.ver = ver ∧ r.prog.take r.progLen = prog := by
  obtain ⟨text, e1, e2, e3⟩ := C31_encode output hrp ver prog h0 h1 hv hp (by omega) ho
  refine ⟨text, e1, ?_⟩
  obtain ⟨h, d, hB⟩ := segwit_bech32 e2
  obtain ⟨r, f1, f2, f3⟩ := C31_decode_exact_partial v0 buf len hrp text hbuf
    (.inr ⟨bech32_has_sep hB, by have := hp.2.1; omega⟩)
  obtain ⟨g1, g2, g3⟩ := f3 ver prog e2
  exact ⟨r, f1, f2.mpr ⟨ver, prog, e2⟩, g1, g3⟩

example : ∃ text, segwitAddrEncode (zeros 76) [98, 99] 0 (List.replicate 20 7) = .ok (true, text ++ 0 :: (zeros 76).drop (text.length + 1)) ∧
      ∃ r, segwitAddrDecode 0 (zeros 40) 0 [98, 99] text = .ok r ∧ r.ret = true ∧ r.ver = 0 ∧ r.prog.take r.progLen = List.replicate 20 7 :=
  C31_roundtrip (zeros 76) [98, 99] (List.replicate 20 7) (zeros 40) 0 0 0 (by decide) (by decide) (by decide)
    ⟨by decide, by decide, by decide⟩ (by decide) (by decide) (by decide)

/-- Versions above 16 and programs of other lengths are refused by the encoder. -/
theorem C31_encode_refuses (output hrp : Bytes) (ver : Int) (prog : Bytes)
    (h : 16 < ver ∨ ¬ ProgramLength ver.toNat prog.length) (hneg : 0 ≤ ver) :
    segwitAddrEncode output hrp ver prog = .ok (false, output) := by
  unfold segwitAddrEncode
  by_cases h1 : ver > 16
  · rw [if_pos h1]; rfl
  rw [if_neg h1]
  by_cases h2 : ver = 0 ∧ prog.length ≠ 20 ∧ prog.length ≠ 32
  · rw [if_pos h2]; rfl
  rw [if_neg h2]
  by_cases h3 : prog.length < 2 ∨ prog.length > 40
  · rw [if_pos h3]; rfl
  exfalso
  rcases h with h | h
  · omega
  · apply h
    refine ⟨by omega, by omega, fun h0 => ?_⟩
    omega

/-- A text with a proper prefix and more than 90 data characters, whatever its checksum, makes
`segwit_addr_decode` write past its local data buffer. -/
theorem C31_long_data_overruns (ver : Int) (buf : Bytes) (len : Nat) (hrp pre suf vs : Bytes) (hpre : pre ≠ [])
    (hr : ∀ c ∈ pre, 33 ≤ c ∧ c ≤ 126) (hv : List.Forall₂ IsVal suf vs) (hl : 90 < suf.length) (hp : pre.length ≤ 83)
    (hmax : pre.length + 1 + suf.length ≤ 1000) :
    segwitAddrDecode ver buf len hrp (pre ++ 0x31 :: suf) = .ub := by
  have h31 : 0x31 ∉ suf := by
    intro hm
    have h2 := ((forall2_iff _ _).mp hv)
    have : toLower 0x31 ∈ suf.map toLower := List.mem_map_of_mem hm
    rw [h2.2, List.mem_map] at this
    obtain ⟨v, hv, hv'⟩ := this
    exact (bechChar_facts v (h2.1 v hv)).1 hv'
  have hL : (pre ++ 0x31 :: suf).length = pre.length + 1 + suf.length := by simp; omega
  have hp0 : pre.length ≠ 0 := fun h => hpre (List.length_eq_zero_iff.mp h)
  unfold segwitAddrDecode bech32Decode
  rw [if_neg (by rw [hL, maxBech32Size]; omega)]
  simp only [sep_len pre suf h31, hL]
  rw [if_pos (show 1 + suf.length ≤ pre.length + 1 + suf.length by omega)]
  rw [show pre.length + 1 + suf.length - (1 + suf.length) = pre.length by omega, if_neg (by omega)]
  have etake : ((pre ++ 0x31 :: suf) ++ [0]).take pre.length = pre := by simp
  have etake' : (pre ++ 0x31 :: suf).take pre.length = pre := by simp
  have edrop : (pre ++ 0x31 :: suf).drop (pre.length + 1) = suf := by
    rw [← List.drop_drop]; simp
  rw [etake, etake', edrop]
  obtain ⟨s1, e1, e2, -⟩ := decHrp_good pre { chk := 1 } hr
  simp only [e1, not_true_eq_false, if_false]
  have e2' : s1.out = pre.map toLower := by simpa using e2
  rw [e2', store_zero _ _ (by rw [length_zeros]; simp; omega)]
  simp only [C.bind_ok]
  obtain ⟨s2, f1, f2, -⟩ := decData_good suf vs
    { s1 with chk := bech32HrpLow pre (bech32PolymodStep s1.chk), out := [] } hv
  simp only [List.nil_append] at f2
  have hvl := hv.length_eq
  simp only [f1, C.bind_ok, f2]
  rw [store, if_neg (by rw [length_zeros, List.length_take]; omega)]
  rfl

/-- "bc1" followed by 97 times 'q': 100 characters, as many as `Script::fromAddress` lets through. -/
example : segwitAddrDecode 0 (zeros 40) 0 [98, 99] ([98, 99] ++ 0x31 :: List.replicate 97 113) = .ub :=
  C31_long_data_overruns 0 (zeros 40) 0 [98, 99] [98, 99] (List.replicate 97 113) (List.replicate 97 0) (by decide) (by decide)
    (by rw [forall2_iff]; decide) (by decide) (by decide) (by decide)

end UB
