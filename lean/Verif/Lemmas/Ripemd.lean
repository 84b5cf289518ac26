import Verif.Model.Ripemd
import Verif.Spec.Ripemd
import Verif.Lemmas.Sha2Words

/-
RIPEMD-160: the eighty unrolled lines are the steps of the paper, and a context fed
any pieces represents their concatenation.
-/

namespace UB.Rmd160
open Spec.Rmd (V)

theorem table_lines : ∀ j < 80,
    lines.getD j (0, 0, 0, 0) = (Spec.Rmd.r j, Spec.Rmd.s j, Spec.Rmd.r' j, Spec.Rmd.s' j) := by
  decide +kernel

theorem table_k : ∀ j < 80, (group (j / 16)).2.1 = Spec.Rmd.k j := by decide +kernel
theorem table_k' : ∀ j < 80, (group (j / 16)).2.2.2 = Spec.Rmd.k' j := by decide +kernel

theorem table_f (j : Nat) (h : j < 80) : (group (j / 16)).1 = Spec.Rmd.f j := by
  interval_cases j <;> rfl

theorem table_f' (j : Nat) (h : j < 80) : (group (j / 16)).2.2.1 = Spec.Rmd.f (79 - j) := by
  interval_cases j <;> rfl

/-- The registers in the roles they have at line `i`. -/
def view (i : Nat) (regs : List UInt32) : V :=
  ⟨regs.getD (reg i 0) 0, regs.getD (reg i 1) 0, regs.getD (reg i 2) 0, regs.getD (reg i 3) 0,
    regs.getD (reg i 4) 0⟩

theorem view_P (i : Nat) (regs : List UInt32) (h : regs.length = 5) (x : UInt32) (s : Nat)
    (f : UInt32 → UInt32 → UInt32 → UInt32) (k : UInt32) :
    view (i + 1) (P regs (reg i 0) (reg i 1) (reg i 2) (reg i 3) (reg i 4) x s f k)
      = Spec.Rmd.step (view i regs) f x k s := by
  match regs, h with
  | [a, b, c, d, e], _ =>
    have hm : i % 5 = 0 ∨ i % 5 = 1 ∨ i % 5 = 2 ∨ i % 5 = 3 ∨ i % 5 = 4 := by omega
    rcases hm with hm | hm | hm | hm | hm <;>
      simp [view, reg, Nat.add_mod, hm, P, Spec.Rmd.step, S, Spec.Rmd.rol, UInt32.add_assoc]

theorem length_P (regs : List UInt32) (a b c d e : Nat) (x : UInt32) (s : Nat)
    (f : UInt32 → UInt32 → UInt32 → UInt32) (k : UInt32) :
    (P regs a b c d e x s f k).length = regs.length := by simp [P]

theorem foldl_line (X st : List UInt32) (h : st.length = 5) (n : Nat) (hn : n ≤ 80) :
    let s := (List.range n).foldl (line X) (st, st)
    s.1.length = 5 ∧ s.2.length = 5
    ∧ view n s.1 = (List.range n).foldl (fun v j => Spec.Rmd.step v (Spec.Rmd.f j)
        (X.getD (Spec.Rmd.r j) 0) (Spec.Rmd.k j) (Spec.Rmd.s j)) (view 0 st)
    ∧ view n s.2 = (List.range n).foldl (fun v j => Spec.Rmd.step v (Spec.Rmd.f (79 - j))
        (X.getD (Spec.Rmd.r' j) 0) (Spec.Rmd.k' j) (Spec.Rmd.s' j)) (view 0 st) := by
  induction n with
  | zero => exact ⟨h, h, rfl, rfl⟩
  | succ n ih =>
    obtain ⟨h1, h2, h3, h4⟩ := ih (by omega)
    simp only [List.range_succ, List.foldl_append, List.foldl_cons, List.foldl_nil] at h1 h2 h3 h4 ⊢
    generalize (List.range n).foldl (line X) (st, st) = s at h1 h2 h3 h4 ⊢
    have e := table_lines n (by omega)
    simp only [line]
    rw [e, table_f n (by omega), table_f' n (by omega), table_k n (by omega), table_k' n (by omega)]
    simp only
    refine ⟨by rw [length_P, h1], by rw [length_P, h2], ?_, ?_⟩
    · rw [view_P n _ h1, h3]
    · rw [view_P n _ h2, h4]

theorem leNat_eq (l : Bytes) : Spec.leNat l = memNat l := by
  induction l with
  | nil => rfl
  | cons b l ih => simp only [memNat, ← ih]; rfl

theorem or_shift8 (a b k : Nat) (h : a < 2 ^ k) : a ||| b <<< k = a + b * 2 ^ k := by
  rw [Nat.or_comm, ← Nat.shiftLeft_add_eq_or_of_lt h, Nat.shiftLeft_eq, Nat.add_comm]

theorem getLE_eq (b : Bytes) (i : Nat) (h : i + 4 ≤ b.length) :
    getLE b i = UInt32.ofNat (Spec.leNat ((b.drop i).take 4)) := by
  have e : (b.drop i).take 4 = [b[i], b[i+1], b[i+2], b[i+3]] := by
    apply List.ext_getElem
    · simp; omega
    · intro j h1 h2
      have hj : j < 4 := by simpa using h2
      interval_cases j <;> simp
  rw [e, leNat_eq]
  unfold getLE
  rw [List.getD_eq_getElem _ _ (by omega), List.getD_eq_getElem _ _ (by omega),
    List.getD_eq_getElem _ _ (by omega), List.getD_eq_getElem _ _ (by omega)]
  generalize b[i] = b0; generalize b[i+1] = b1; generalize b[i+2] = b2; generalize b[i+3] = b3
  have h0 := b0.toNat_lt; have h1 := b1.toNat_lt; have h2 := b2.toNat_lt; have h3 := b3.toNat_lt
  apply UInt32.toNat_inj.mp
  simp only [UInt32.toNat_or, UInt32.toNat_shiftLeft, UInt8.toNat_toUInt32, UInt32.toNat_ofNat',
    UInt32.reduceToNat, Nat.reduceMod]
  have m1 : b1.toNat <<< 8 % 2 ^ 32 = b1.toNat <<< 8 := by rw [Nat.shiftLeft_eq]; omega
  have m2 : b2.toNat <<< 16 % 2 ^ 32 = b2.toNat <<< 16 := by rw [Nat.shiftLeft_eq]; omega
  have m3 : b3.toNat <<< 24 % 2 ^ 32 = b3.toNat <<< 24 := by rw [Nat.shiftLeft_eq]; omega
  rw [m1, m2, m3, or_shift8 _ _ 8 (by omega), or_shift8 _ _ 16 (by omega), or_shift8 _ _ 24 (by omega)]
  simp only [memNat]
  omega

theorem process_eq (h : V) (data : Bytes) (hd : data.length = 64) :
    process h.toList data = (Spec.Rmd.compress h (Spec.Rmd.words data)).toList := by
  have hX : ((List.range 16).map fun i => getLE data (4 * i)) = Spec.Rmd.words data := by
    unfold Spec.Rmd.words Spec.chunks
    rw [List.map_map, hd]
    apply List.map_congr_left
    intro i hi
    have := List.mem_range.mp hi
    simp only [Function.comp]
    rw [getLE_eq _ _ (by omega), Nat.mul_comm]
  obtain ⟨h1, h2, h3, h4⟩ := foldl_line (Spec.Rmd.words data) h.toList rfl 80 (Nat.le_refl _)
  have hv : view 0 h.toList = h := rfl
  rw [hv] at h3 h4
  have v80 : ∀ regs, view 80 regs = ⟨regs.getD 0 0, regs.getD 1 0, regs.getD 2 0, regs.getD 3 0,
    regs.getD 4 0⟩ := fun _ => rfl
  rw [v80] at h3 h4
  simp only [process, hX, Spec.Rmd.compress]
  generalize (List.range 80).foldl (line (Spec.Rmd.words data)) (h.toList, h.toList) = s at h1 h2 h3 h4 ⊢
  rw [← h3, ← h4]
  simp [Spec.Rmd.V.toList]

theorem chain_nil (h : V) : Spec.Rmd.chain h [] = h := by simp [Spec.Rmd.chain, Spec.chunks_nil]

theorem chain_append (h : V) (q : Nat) (x y : Bytes) (hx : x.length = q * 64) :
    Spec.Rmd.chain h (x ++ y) = Spec.Rmd.chain (Spec.Rmd.chain h x) y := by
  unfold Spec.Rmd.chain
  rw [Spec.chunks_append _ (by omega) q x y hx, List.foldl_append]

theorem chain_one (h : V) (b : Bytes) (hb : b.length = 64) :
    Spec.Rmd.chain h b = Spec.Rmd.compress h (Spec.Rmd.words b) := by
  unfold Spec.Rmd.chain
  rw [Spec.chunks_one _ (by omega) b hb]; rfl

theorem blocks_spec (fuel : Nat) : ∀ (h : V) (input : Bytes), input.length ≤ fuel →
    ∃ q y r, input = y ++ r ∧ y.length = q * 64 ∧ r.length < 64
      ∧ blocks fuel h.toList input = ((Spec.Rmd.chain h y).toList, r) := by
  induction fuel with
  | zero =>
    intro h input hl
    have : input = [] := List.length_eq_zero_iff.mp (by omega)
    subst this
    exact ⟨0, [], [], rfl, rfl, by simp, by simp [blocks, chain_nil]⟩
  | succ fuel ih =>
    intro h input hl
    rw [blocks]
    split_ifs with h64
    · have ht : (input.take 64).length = 64 := by rw [List.length_take]; omega
      rw [process_eq h _ ht]
      obtain ⟨q, y, r, e1, e2, e3, e4⟩ := ih (Spec.Rmd.compress h (Spec.Rmd.words (input.take 64)))
        (input.drop 64) (by rw [List.length_drop]; omega)
      refine ⟨q + 1, input.take 64 ++ y, r, ?_, ?_, e3, ?_⟩
      · rw [List.append_assoc, ← e1, List.take_append_drop]
      · rw [List.length_append, ht, e2]; omega
      · rw [e4, chain_append _ 1 _ _ (by omega), chain_one _ _ ht]
    · exact ⟨0, [], input, rfl, rfl, by omega, by rw [chain_nil]⟩

/-- The context holds the message `m`. -/
def Rep (c : Ctx) (m : Bytes) : Prop :=
  ∃ q x t, m = x ++ t ∧ x.length = q * 64 ∧ t.length < 64
    ∧ c.state = (Spec.Rmd.chain Spec.Rmd.h0 x).toList
    ∧ c.total0.toNat + 4294967296 * c.total1.toNat = m.length
    ∧ c.buffer.length = 64 ∧ c.buffer.take t.length = t

theorem rep_init : Rep init [] :=
  ⟨0, [], [], rfl, rfl, by simp, by rw [chain_nil]; rfl, rfl, rfl, rfl⟩

theorem and63 (x : UInt32) : (x &&& 0x3F).toNat = x.toNat % 64 := by
  rw [UInt32.toNat_and]
  exact Nat.and_two_pow_sub_one_eq_mod x.toNat 6

theorem and_full (x : UInt32) : x &&& 0xFFFFFFFF = x := by
  apply UInt32.toNat_inj.mp
  rw [UInt32.toNat_and]
  have := Nat.and_two_pow_sub_one_eq_mod x.toNat 32
  have h := x.toNat_lt
  rw [Nat.mod_eq_of_lt h] at this
  exact this

/-- New counters. -/
theorem totals (t0 t1 : UInt32) (n k : Nat) (hk : k < 4294967296) (h : t0.toNat + 4294967296 * t1.toNat = n)
    (hl : n + k < 18446744073709551616) :
    ((t0 + UInt32.ofNat k) &&& 0xFFFFFFFF).toNat
      + 4294967296 * (if (t0 + UInt32.ofNat k) &&& 0xFFFFFFFF < UInt32.ofNat k then t1 + 1 else t1).toNat
      = n + k := by
  rw [and_full]
  have h0 := t0.toNat_lt
  have h1 := t1.toNat_lt
  have e : (t0 + UInt32.ofNat k).toNat = (t0.toNat + k) % 4294967296 := by
    rw [UInt32.toNat_add, UInt32.toNat_ofNat']; omega
  have e2 : (UInt32.ofNat k).toNat = k := by rw [UInt32.toNat_ofNat']; omega
  split_ifs with hc
  · rw [UInt32.lt_iff_toNat_lt, e, e2] at hc
    rw [e, UInt32.toNat_add]
    simp only [UInt32.reduceToNat]
    omega
  · rw [UInt32.lt_iff_toNat_lt, e, e2] at hc
    rw [e]; omega

theorem rep_update32 (c : Ctx) (m input : Bytes) (h : Rep c m) (hi : input.length < 4294967296)
    (hl : m.length + input.length < 18446744073709551616) : Rep (update32 c input) (m ++ input) := by
  unfold update32
  by_cases h0 : input.length = 0
  · have : input = [] := List.length_eq_zero_iff.mp h0
    subst this
    rw [if_pos h0, List.append_nil]
    exact h
  rw [if_neg h0]
  obtain ⟨q, x, t, hm, hx, ht, hs, hc, hb, htk⟩ := h
  have hlen : m.length = q * 64 + t.length := by rw [hm, List.length_append, hx]
  have hu : (c.total0 &&& 0x3F).toNat = t.length := by
    rw [and63]; have := c.total0.toNat_lt; omega
  have htot := totals c.total0 c.total1 m.length input.length hi hc hl
  simp only [hu]
  by_cases hcase : t.length ≠ 0 ∧ input.length ≥ 64 - t.length
  · rw [if_pos hcase]
    simp only
    have hdt : (input.take (64 - t.length)).length = 64 - t.length := by rw [List.length_take]; omega
    have hput : put c.buffer t.length (input.take (64 - t.length)) = t ++ input.take (64 - t.length) := by
      unfold put
      rw [List.drop_eq_nil_of_le (by rw [hdt, hb]; omega), htk, List.append_nil]
    have hblk : (t ++ input.take (64 - t.length)).length = 64 := by
      rw [List.length_append, hdt]; omega
    rw [hput, hs, process_eq _ _ hblk]
    obtain ⟨q', y, r, e1, e2, e3, e4⟩ := blocks_spec (input.drop (64 - t.length)).length
      (Spec.Rmd.compress (Spec.Rmd.chain Spec.Rmd.h0 x) (Spec.Rmd.words (t ++ input.take (64 - t.length))))
      (input.drop (64 - t.length)) (Nat.le_refl _)
    rw [e4]
    simp only
    refine ⟨q + 1 + q', x ++ (t ++ input.take (64 - t.length)) ++ y, r, ?_, ?_, e3, ?_, ?_, ?_, ?_⟩
    · rw [hm, List.append_assoc, List.append_assoc, ← e1, List.append_assoc, List.append_assoc,
        List.take_append_drop]
    · rw [List.length_append, List.length_append, hx, hblk, e2]; omega
    · rw [chain_append _ (q + 1) _ _ (by rw [List.length_append, hx, hblk]; omega),
        chain_append _ q _ _ hx, chain_one _ _ hblk]
    · rw [List.length_append]; exact htot
    · show (if r.length > 0 then put _ 0 r else _).length = 64
      split_ifs
      · rw [length_put _ _ _ (by rw [hblk]; omega), hblk]
      · exact hblk
    · show (if r.length > 0 then put _ 0 r else _).take r.length = r
      split_ifs with hr
      · have := take_put (t ++ input.take (64 - t.length)) 0 r (by rw [hblk]; omega)
        rw [Nat.zero_add] at this
        rw [this]; simp
      · have : r = [] := List.length_eq_zero_iff.mp (by omega)
        subst this; simp
  · rw [if_neg hcase]
    simp only
    obtain ⟨q', y, r, e1, e2, e3, e4⟩ := blocks_spec input.length (Spec.Rmd.chain Spec.Rmd.h0 x)
      input (Nat.le_refl _)
    rw [hs, e4]
    simp only
    have hlen1 : input.length = q' * 64 + r.length := by rw [e1, List.length_append, e2]
    by_cases ht0 : t.length = 0
    · have : t = [] := List.length_eq_zero_iff.mp ht0
      subst this
      rw [List.append_nil] at hm
      subst hm
      refine ⟨q + q', m ++ y, r, by rw [e1, List.append_assoc], ?_, e3, ?_, ?_, ?_, ?_⟩
      · rw [List.length_append, hx, e2]; omega
      · rw [chain_append _ q _ _ hx]
      · rw [List.length_append]; exact htot
      · show (if r.length > 0 then put _ 0 r else _).length = 64
        split_ifs
        · rw [length_put _ _ _ (by rw [hb]; omega), hb]
        · exact hb
      · show (if r.length > 0 then put _ 0 r else _).take r.length = r
        split_ifs with hr
        · have := take_put c.buffer 0 r (by rw [hb]; omega)
          rw [Nat.zero_add] at this
          rw [this]; simp
        · have : r = [] := List.length_eq_zero_iff.mp (by omega)
          subst this; simp
    · have hsmall : input.length < 64 - t.length := by
        apply Nat.lt_of_not_le
        intro hge
        exact hcase ⟨ht0, hge⟩
      have hq' : q' = 0 := by omega
      subst hq'
      have : y = [] := List.length_eq_zero_iff.mp (by omega)
      subst this
      rw [List.nil_append] at e1
      subst e1
      refine ⟨q, x, t ++ input, by rw [hm, List.append_assoc], hx, by rw [List.length_append]; omega,
        by rw [chain_nil], ?_, ?_, ?_⟩
      · rw [List.length_append]; exact htot
      · show (if input.length > 0 then put _ _ input else _).length = 64
        rw [if_pos (by omega), length_put _ _ _ (by rw [hb]; omega), hb]
      · show (if input.length > 0 then put _ _ input else _).take _ = _
        rw [if_pos (by omega), List.length_append, take_put _ _ _ (by rw [hb]; omega), htk]

theorem cut32_eq (l : Bytes) (h : l.length < 4294967296) : Sha2Code.cut32 l = l := by
  rw [Sha2Code.cut32, Nat.mod_eq_of_lt h, List.take_length]

theorem rep_update (c : Ctx) (m input : Bytes) (h : Rep c m) (hi : input.length < 4294967296)
    (hl : m.length + input.length < 18446744073709551616) : Rep (update c input) (m ++ input) := by
  unfold update
  rw [cut32_eq _ hi]
  exact rep_update32 c m input h hi hl

theorem rep_updates (pieces : List Bytes) : ∀ (c : Ctx) (m : Bytes), Rep c m →
    (∀ p ∈ pieces, p.length < 4294967296) → m.length + pieces.flatten.length < 18446744073709551616 →
    Rep (pieces.foldl update c) (m ++ pieces.flatten) := by
  induction pieces with
  | nil => intro c m h _ _; simpa using h
  | cons p ps ih =>
    intro c m h hp hl
    rw [List.flatten_cons, List.length_append] at hl
    rw [List.foldl_cons, List.flatten_cons, ← List.append_assoc]
    exact ih _ _ (rep_update c m p h (hp p (by simp)) (by omega)) (fun p hp' => hp p (by simp [hp']))
      (by rw [List.length_append]; omega)

theorem putLE_eq (n : UInt32) : putLE n = Spec.leBytes 4 n.toNat := by
  have := n.toNat_lt
  have hand : ∀ k : Nat, k &&& 255 = k % 256 := fun k => Nat.and_two_pow_sub_one_eq_mod k 8
  simp only [putLE, Spec.leBytes, List.cons.injEq, and_true, ← UInt8.toNat_inj,
    UInt8.toNat_ofNat', UInt32.toNat_toUInt8, UInt32.toNat_and, UInt32.toNat_shiftRight,
    Nat.shiftRight_eq_div_pow, UInt32.reduceToNat, Nat.reduceMod, Nat.reducePow, hand]
  simp only [true_and]
  constructor <;> omega

theorem msglen_eq (t0 t1 : UInt32) (n : Nat) (h : t0.toNat + 4294967296 * t1.toNat = n) :
    putLE (t0 <<< 3) ++ putLE ((t0 >>> 29) ||| (t1 <<< 3)) = Spec.leBytes 8 (8 * n) := by
  have h0 := t0.toNat_lt
  have h1 := t1.toNat_lt
  rw [putLE_eq, putLE_eq, show (8 : Nat) = 4 + 4 by rfl, leBytes_add]
  congr 1
  · rw [UInt32.toNat_shiftLeft, Nat.shiftLeft_eq]
    simp only [UInt32.reduceToNat, Nat.reduceMod]
    rw [show t0.toNat * 2 ^ 3 % 2 ^ 32 = (4 + 4) * n % 256 ^ 4 by omega]
    exact leBytes_mod 4 _
  · rw [UInt32.toNat_or, UInt32.toNat_shiftLeft, UInt32.toNat_shiftRight, Nat.shiftRight_eq_div_pow]
    simp only [UInt32.reduceToNat, Nat.reduceMod]
    rw [show t1.toNat <<< 3 % 2 ^ 32 = (t1.toNat % 2 ^ 29) <<< 3 by
      rw [Nat.shiftLeft_eq, Nat.shiftLeft_eq]; omega]
    rw [or_shift8 _ _ 3 (by omega)]
    rw [show t0.toNat / 2 ^ 29 + t1.toNat % 2 ^ 29 * 2 ^ 3 = ((4 + 4) * n / 256 ^ 4) % 256 ^ 4 by omega]
    exact leBytes_mod 4 _

theorem padding_take (k : Nat) (h1 : 1 ≤ k) (h2 : k ≤ 64) : padding.take k = [0x80] ++ zeros (k - 1) := by
  obtain ⟨j, rfl⟩ : ∃ j, k = j + 1 := ⟨k - 1, by omega⟩
  have e : padding = 0x80 :: List.replicate 63 0 := rfl
  rw [e, List.take_succ_cons, List.take_replicate, Nat.min_eq_left (by omega)]
  rfl

theorem final_spec (c : Ctx) (m : Bytes) (h : Rep c m) (hl : m.length < 2 ^ 61) :
    final c = Spec.ripemd160 m := by
  have h' := h
  obtain ⟨q, x, t, hm, hx, ht, hs, hc, hb, htk⟩ := h'
  have hlen : m.length = q * 64 + t.length := by rw [hm, List.length_append, hx]
  have hu : (c.total0 &&& 0x3F).toNat = t.length := by
    rw [and63]; have := c.total0.toNat_lt; omega
  unfold final
  simp only [hu, msglen_eq c.total0 c.total1 m.length hc]
  have hpad : padding.take (if t.length < 56 then 56 - t.length else 120 - t.length)
      = [0x80] ++ zeros ((64 - (m.length + 9) % 64) % 64) := by
    rw [padding_take _ (by split_ifs <;> omega) (by split_ifs <;> omega)]
    congr 2
    split_ifs <;> omega
  rw [hpad]
  have hpl : ([0x80] ++ zeros ((64 - (m.length + 9) % 64) % 64) : Bytes).length ≤ 64 := by
    rw [List.length_append, length_zeros, List.length_singleton]; omega
  have r1 := rep_update32 c m ([0x80] ++ zeros ((64 - (m.length + 9) % 64) % 64)) h (by omega) (by omega)
  have r2 := rep_update32 _ _ (Spec.leBytes 8 (8 * m.length)) r1
    (by rw [Spec.length_leBytes]; omega) (by rw [List.length_append, Spec.length_leBytes]; omega)
  generalize update32 (update32 c ([0x80] ++ zeros ((64 - (m.length + 9) % 64) % 64)))
    (Spec.leBytes 8 (8 * m.length)) = c2 at r2 ⊢
  obtain ⟨q2, x2, t2, hm2, hx2, ht2, hs2, -, -, -⟩ := r2
  have hpe : m ++ ([0x80] ++ zeros ((64 - (m.length + 9) % 64) % 64)) ++ Spec.leBytes 8 (8 * m.length)
      = Spec.Rmd.pad m := by simp only [Spec.Rmd.pad, List.append_assoc]
  have hplen : (Spec.Rmd.pad m).length % 64 = 0 := by
    unfold Spec.Rmd.pad
    rw [List.length_append, List.length_append, List.length_append, length_zeros, Spec.length_leBytes,
      List.length_singleton]
    omega
  rw [hpe] at hm2
  have ht20 : t2 = [] := by
    apply List.length_eq_zero_iff.mp
    rw [hm2, List.length_append, hx2] at hplen
    omega
  subst ht20
  rw [List.append_nil] at hm2
  rw [hs2, ← hm2]
  simp only [putLE_eq, Spec.ripemd160, Spec.Rmd.hash, Spec.Rmd.V.toList]
  simp

end UB.Rmd160
