import Verif.Lemmas.Sha2Transform
import Mathlib.Tactic.SplitIfs

/-
Streaming: a context fed any pieces represents their concatenation, and finishing
it yields the hash of the concatenation.
-/

set_option linter.unusedSectionVars false

namespace UB

theorem Spec.length_leBytes (k n : Nat) : (Spec.leBytes k n).length = k := by
  induction k generalizing n with
  | zero => rfl
  | succ k ih => simp [Spec.leBytes, ih]

theorem Spec.length_beBytes (k n : Nat) : (Spec.beBytes k n).length = k := by
  simp [Spec.beBytes, Spec.length_leBytes]

namespace Spec
variable {α : Type}

theorem chunks_nil (n : Nat) : chunks n ([] : List α) = [] := by simp [chunks]

theorem chunks_cons (n : Nat) (hn : 0 < n) (b r : List α) (hb : b.length = n) :
    chunks n (b ++ r) = b :: chunks n r := by
  unfold chunks
  rw [List.length_append, hb, Nat.add_div_left _ hn, List.range_succ_eq_map, List.map_cons, List.map_map]
  congr 1
  · rw [Nat.zero_mul, List.drop_zero, List.take_left' hb]
  · apply List.map_congr_left
    intro i _
    simp only [Function.comp]
    rw [Nat.succ_mul, Nat.add_comm, ← hb, List.drop_append, List.drop_eq_nil_of_le (by omega)]
    simp

theorem chunks_append (n : Nat) (hn : 0 < n) (q : Nat) (x r : List α) (hx : x.length = q * n) :
    chunks n (x ++ r) = chunks n x ++ chunks n r := by
  induction q generalizing x with
  | zero =>
    have : x = [] := List.length_eq_zero_iff.mp (by omega)
    subst this; simp [chunks_nil]
  | succ q ih =>
    have hq : n ≤ x.length := by rw [hx, Nat.succ_mul]; omega
    have e : x = x.take n ++ x.drop n := (List.take_append_drop n x).symm
    have ht : (x.take n).length = n := by rw [List.length_take]; omega
    rw [e, List.append_assoc, chunks_cons n hn (x.take n) _ ht, chunks_cons n hn (x.take n) _ ht,
      ih (x.drop n) (by rw [List.length_drop, hx, Nat.succ_mul]; omega), List.cons_append]

theorem chunks_one (n : Nat) (hn : 0 < n) (b : List α) (hb : b.length = n) : chunks n b = [b] := by
  have := chunks_cons n hn b [] hb
  rwa [List.append_nil, chunks_nil] at this

end Spec

theorem length_put (buf : Bytes) (off : Nat) (d : Bytes) (h : off + d.length ≤ buf.length) :
    (put buf off d).length = buf.length := by
  simp [put]; omega

theorem take_put (buf : Bytes) (off : Nat) (d : Bytes) (h : off + d.length ≤ buf.length) :
    (put buf off d).take (off + d.length) = buf.take off ++ d := by
  unfold put
  apply List.take_left'
  simp; omega

namespace Sha2Code
variable {W BC : Type} [Add W] [OfNat W 0] [Inhabited W] {P : Sha2Code W BC} {S : Spec.Sha2 W}

theorem chain_nil (H : Spec.Regs W) : S.chain H [] = H := by
  simp [Spec.Sha2.chain, Spec.chunks_nil]

theorem chain_append (hw : 0 < S.wordBytes) (H : Spec.Regs W) (q : Nat) (x y : Bytes)
    (hx : x.length = q * S.blockBytes) : S.chain H (x ++ y) = S.chain (S.chain H x) y := by
  unfold Spec.Sha2.chain
  rw [Spec.chunks_append _ (by unfold Spec.Sha2.blockBytes; omega) q x y hx, List.foldl_append]

theorem chain_one (hw : 0 < S.wordBytes) (H : Spec.Regs W) (b : Bytes) (hb : b.length = S.blockBytes) :
    S.chain H b = S.compress H (S.words b) := by
  unfold Spec.Sha2.chain
  rw [Spec.chunks_one _ (by unfold Spec.Sha2.blockBytes; omega) b hb]; rfl

theorem length_words (hw : 0 < S.wordBytes) (n : Nat) (bs : Bytes) (h : bs.length = n * S.wordBytes) :
    (S.words bs).length = n := by
  simp [Spec.Sha2.words, Spec.chunks, h, Nat.mul_div_cancel _ hw]

theorem words_append (hw : 0 < S.wordBytes) (n : Nat) (x y : Bytes) (h : x.length = n * S.wordBytes) :
    S.words (x ++ y) = S.words x ++ S.words y := by
  unfold Spec.Sha2.words
  rw [Spec.chunks_append _ hw n x y h, List.map_append]

theorem words_word (ok : Sha2Ok P S) (w : W) :
    S.words (Spec.beBytes S.wordBytes (S.toNat w)) = [w] := by
  unfold Spec.Sha2.words
  rw [Spec.chunks_one _ ok.wpos _ (Spec.length_beBytes _ _)]
  simp [ok.word_rt]

theorem hostWords_reverse (ok : Sha2Ok P S) (n : Nat) (buf : Bytes) (h : n * S.wordBytes ≤ buf.length) :
    (P.hostWords n buf).map P.reverse = S.words (buf.take (n * S.wordBytes)) := by
  have hw := ok.wpos
  unfold hostWords Spec.Sha2.words Spec.chunks
  rw [List.map_map, List.map_map, List.length_take, Nat.min_eq_left h, Nat.mul_div_cancel _ hw]
  apply List.map_congr_left
  intro i hi
  have hi : i < n := List.mem_range.mp hi
  have hin : i * S.wordBytes + S.wordBytes ≤ n * S.wordBytes := by
    rw [← Nat.succ_mul]; exact Nat.mul_le_mul_right _ hi
  simp only [Function.comp, ok.wlen]
  rw [ok.load _ (by simp; omega)]
  congr 2
  rw [List.drop_take, List.take_take, Nat.min_eq_left (by omega)]

theorem length_memWords (ok : Sha2Ok P S) (ws : List W) :
    (P.memWords ws).length = ws.length * S.wordBytes := by
  unfold memWords
  induction ws with
  | nil => simp
  | cons w ws ih => simp [ih, ok.toMem_length, Nat.succ_mul]; omega

theorem memWords_reverse (ok : Sha2Ok P S) (H : Spec.Regs W) :
    P.memWords (H.toList.map P.reverse) = S.out H := by
  simp [memWords, Spec.Sha2.out, Spec.Regs.toList, ok.save]

theorem blockLen_eq (ok : Sha2Ok P S) : P.blockLen = S.blockBytes := by
  simp [blockLen, Spec.Sha2.blockBytes, ok.wlen]

theorem swapTransform_spec (ok : Sha2Ok P S) (c : Sha2Ctx W BC) (H : Spec.Regs W)
    (hs : c.state = H.toList) (hb : c.buffer.length = S.blockBytes) :
    (P.swapTransform c).state = (S.compress H (S.words c.buffer)).toList
      ∧ (P.swapTransform c).buffer.length = S.blockBytes ∧ (P.swapTransform c).bits = c.bits := by
  have h16 : c.buffer.length = 16 * S.wordBytes := hb
  have hw : (P.hostWords 16 c.buffer).map P.reverse = S.words c.buffer := by
    rw [hostWords_reverse ok 16 c.buffer (by omega), ← h16, List.take_length]
  simp only [swapTransform, hw]
  refine ⟨?_, ?_, trivial⟩
  · rw [hs, transform_eq ok _ _ (length_words ok.wpos 16 _ h16)]
  · rw [length_memWords ok, length_words ok.wpos 16 _ h16]; rfl

/-- The context holds the message `m`. -/
def Rep (S : Spec.Sha2 W) (cnt : BC → Nat → Prop) (c : Sha2Ctx W BC) (m : Bytes) : Prop :=
  ∃ q x t, m = x ++ t ∧ x.length = q * S.blockBytes ∧ t.length < S.blockBytes
    ∧ c.state = (S.chain S.h0 x).toList ∧ cnt c.bits m.length
    ∧ c.buffer.length = S.blockBytes ∧ c.buffer.take t.length = t

variable {cnt : BC → Nat → Prop}

theorem rep_init (ok : Sha2Ok P S) (ct : Sha2Count P S cnt) : Rep S cnt P.init [] := by
  refine ⟨0, [], [], rfl, by simp, ?_, ?_, ct.zero, ?_, by simp⟩
  · have := ok.wpos; simp [Spec.Sha2.blockBytes]; omega
  · simp [init, chain_nil, ok.iv]
  · simp [init, blockLen_eq ok]

theorem rep_blocks (ok : Sha2Ok P S) (ct : Sha2Count P S cnt) (fuel : Nat) :
    ∀ (c : Sha2Ctx W BC) (m data : Bytes) (q : Nat), m.length = q * S.blockBytes →
    c.state = (S.chain S.h0 m).toList → cnt c.bits m.length → c.buffer.length = S.blockBytes →
    data.length ≤ fuel → m.length + data.length < 2 ^ 61 →
    Rep S cnt (P.blocks fuel c data) (m ++ data) := by
  have hB : 0 < S.blockBytes := by have := ok.wpos; unfold Spec.Sha2.blockBytes; omega
  have hbl := blockLen_eq ok
  induction fuel with
  | zero =>
    intro c m data q hm hs hc hb hf hl
    have : data = [] := List.length_eq_zero_iff.mp (by omega)
    subst this
    exact ⟨q, m, [], rfl, hm, by simpa using hB, hs, by rw [List.append_nil]; exact hc, hb, by simp⟩
  | succ fuel ih =>
    intro c m data q hm hs hc hb hf hl
    rw [blocks, hbl]
    split_ifs with h1 h2
    · have htk : (data.take S.blockBytes).length = S.blockBytes := by simp; omega
      have hput : put c.buffer 0 (data.take S.blockBytes) = data.take S.blockBytes := by
        unfold put
        rw [List.drop_eq_nil_of_le (by rw [htk, hb]; omega)]
        simp
      rw [hput]
      obtain ⟨s1, s2, s3⟩ := swapTransform_spec ok
        { c with buffer := data.take S.blockBytes } (S.chain S.h0 m) hs htk
      have happ : m ++ data = (m ++ data.take S.blockBytes) ++ data.drop S.blockBytes := by
        rw [List.append_assoc, List.take_append_drop]
      rw [happ]
      refine ih _ _ _ (q + 1) ?_ ?_ ?_ s2 ?_ ?_
      · rw [List.length_append, hm, htk, Nat.succ_mul]
      · show (P.swapTransform _).state = _
        rw [s1, chain_append ok.wpos _ q _ _ hm, chain_one ok.wpos _ _ htk]
      · show cnt (P.addBits (P.swapTransform _).bits _) _
        rw [s3, List.length_append, htk]
        exact ct.add _ _ _ hc (by omega)
      · rw [List.length_drop]; omega
      · rw [List.length_append, htk, List.length_drop]; omega
    · refine ⟨q, m, data, rfl, hm, by omega, hs, ?_, ?_, ?_⟩
      · rw [List.length_append]; exact ct.add _ _ _ hc hl
      · show (put c.buffer 0 data).length = _
        rw [length_put _ _ _ (by omega), hb]
      · have := take_put c.buffer 0 data (by omega)
        rw [Nat.zero_add] at this
        show (put c.buffer 0 data).take _ = _
        rw [this]; simp
    · have : data = [] := List.length_eq_zero_iff.mp (by omega)
      subst this
      exact ⟨q, m, [], rfl, hm, by simpa using hB, hs, by simpa using hc, hb, by simp⟩

theorem mod_of_rep {q u B n : Nat} (h : n = q * B + u) (hu : u < B) : n % B = u := by
  rw [h, Nat.mul_comm, Nat.mul_add_mod, Nat.mod_eq_of_lt hu]

theorem rep_update (ok : Sha2Ok P S) (ct : Sha2Count P S cnt) (c : Sha2Ctx W BC) (m data : Bytes)
    (h : Rep S cnt c m) (hl : m.length + data.length < 2 ^ 61) :
    Rep S cnt (P.update c data) (m ++ data) := by
  have hbl := blockLen_eq ok
  unfold update
  by_cases h0 : data.length = 0
  · have : data = [] := List.length_eq_zero_iff.mp h0
    subst this
    rw [if_pos h0, List.append_nil]
    exact h
  rw [if_neg h0]
  obtain ⟨q, x, t, hm, hx, ht, hs, hc, hb, htk⟩ := h
  have hlen : m.length = q * S.blockBytes + t.length := by rw [hm, List.length_append, hx]
  have hu : P.used c.bits = t.length := by
    rw [ct.used _ _ hc (by omega), hbl, mod_of_rep hlen ht]
  simp only [hu, hbl]
  split_ifs with h1 h2
  · have h2' : S.blockBytes - t.length ≤ data.length := h2
    have hdt : (data.take (S.blockBytes - t.length)).length = S.blockBytes - t.length := by simp; omega
    have hput : put c.buffer t.length (data.take (S.blockBytes - t.length))
        = t ++ data.take (S.blockBytes - t.length) := by
      unfold put
      rw [List.drop_eq_nil_of_le (by rw [hdt, hb]; omega), htk, List.append_nil]
    rw [hput]
    obtain ⟨s1, s2, s3⟩ := swapTransform_spec ok
      { c with buffer := t ++ data.take (S.blockBytes - t.length),
               bits := P.addBits c.bits (shl3 (S.blockBytes - t.length)) } (S.chain S.h0 x) hs
      (by show (t ++ _).length = _
          rw [List.length_append, hdt]; omega)
    have happ : m ++ data = (x ++ (t ++ data.take (S.blockBytes - t.length)))
        ++ data.drop (S.blockBytes - t.length) := by
      rw [hm, List.append_assoc, List.append_assoc, List.append_assoc, List.take_append_drop]
    have hblk : (t ++ data.take (S.blockBytes - t.length)).length = S.blockBytes := by
      rw [List.length_append, hdt]; omega
    rw [happ]
    refine rep_blocks ok ct _ _ _ _ (q + 1) ?_ ?_ ?_ s2 ?_ ?_
    · rw [List.length_append, hx, hblk, Nat.succ_mul]
    · rw [s1, chain_append ok.wpos _ q _ _ hx, chain_one ok.wpos _ _ hblk]
    · rw [s3, List.length_append, hx, hblk]
      have := ct.add _ _ (S.blockBytes - t.length) hc (by omega)
      rw [hlen, show q * S.blockBytes + t.length + (S.blockBytes - t.length)
        = q * S.blockBytes + S.blockBytes by omega] at this
      exact this
    · rw [List.length_drop]; omega
    · rw [List.length_append, hx, hblk, List.length_drop]; omega
  · have h2' : data.length < S.blockBytes - t.length := Nat.lt_of_not_le h2
    refine ⟨q, x, t ++ data, by rw [hm, List.append_assoc], hx, by rw [List.length_append]; omega, hs, ?_, ?_, ?_⟩
    · rw [List.length_append]; exact ct.add _ _ _ hc hl
    · show (put _ _ _).length = _
      rw [length_put _ _ _ (by omega), hb]
    · show (put _ _ _).take _ = _
      rw [List.length_append, take_put _ _ _ (by omega), htk]
  · have ht0 : t = [] := List.length_eq_zero_iff.mp (by omega)
    subst ht0
    rw [List.append_nil] at hm
    subst hm
    exact rep_blocks ok ct _ _ _ _ q hx hs hc hb (Nat.le_refl _) hl

theorem rep_updates (ok : Sha2Ok P S) (ct : Sha2Count P S cnt) (pieces : List Bytes) :
    ∀ (c : Sha2Ctx W BC) (m : Bytes), Rep S cnt c m → m.length + pieces.flatten.length < 2 ^ 61 →
    Rep S cnt (pieces.foldl P.update c) (m ++ pieces.flatten) := by
  induction pieces with
  | nil => intro c m h _; simpa using h
  | cons p ps ih =>
    intro c m h hl
    rw [List.flatten_cons, List.length_append] at hl
    rw [List.foldl_cons, List.flatten_cons, ← List.append_assoc]
    exact ih _ _ (rep_update ok ct c m p h (by omega)) (by rw [List.length_append]; omega)

/-- Zeros needed by the padding, in the two cases of the code. -/
theorem pad_zeros (B w n q u : Nat) (hB : B = 16 * w) (hn : n = q * B + u) (hu : u < B) :
    (B - (n + 1 + 2 * w) % B) % B =
      if u + 1 > B - 2 * w then (B - (u + 1)) + (B - 2 * w) else B - 2 * w - (u + 1) := by
  have e : (n + 1 + 2 * w) % B = (u + 1 + 2 * w) % B := by
    rw [hn, Nat.add_assoc, Nat.add_assoc, Nat.mul_comm, Nat.mul_add_mod, ← Nat.add_assoc]
  rw [e]
  split_ifs with h
  · have : (u + 1 + 2 * w) % B = u + 1 + 2 * w - B := by
      rw [Nat.mod_eq_sub_mod (by omega), Nat.mod_eq_of_lt (by omega)]
    rw [this, Nat.mod_eq_of_lt (by omega)]; omega
  · by_cases h2 : u + 1 + 2 * w = B
    · rw [h2, Nat.mod_self, Nat.sub_zero, Nat.mod_self]; omega
    · rw [Nat.mod_eq_of_lt (a := u + 1 + 2 * w) (by omega), Nat.mod_eq_of_lt (by omega)]; omega

theorem zeros_add (a b : Nat) : zeros (a + b) = zeros a ++ zeros b := by
  simp [zeros, ← List.replicate_append_replicate]

/-- The last transform: fourteen words from the buffer and the length. -/
theorem last_words (ok : Sha2Ok P S) (ct : Sha2Count P S cnt) (buf : Bytes) (b : BC) (n : Nat)
    (hb : buf.length = S.blockBytes) (hc : cnt b n) (hn : n < 2 ^ 61) :
    (P.hostWords 14 buf).map P.reverse ++ [P.lenHi b, P.lenLo b]
      = S.words (buf.take (14 * S.wordBytes) ++ Spec.beBytes (2 * S.wordBytes) (8 * n)) := by
  have h14 : 14 * S.wordBytes ≤ buf.length := by rw [hb]; unfold Spec.Sha2.blockBytes; omega
  rw [hostWords_reverse ok 14 buf h14,
    words_append ok.wpos 14 _ _ (by simp [h14]), ← ct.len b n hc hn,
    words_append ok.wpos 1 _ _ (by simp [Spec.length_beBytes]), words_word ok, words_word ok]
  rfl

theorem final_spec (ok : Sha2Ok P S) (ct : Sha2Count P S cnt) (c : Sha2Ctx W BC) (m : Bytes)
    (h : Rep S cnt c m) (hl : m.length < 2 ^ 61) : (P.final c).2 = S.hash m := by
  obtain ⟨q, x, t, hm, hx, ht, hs, hc, hb, htk⟩ := h
  have hbl := blockLen_eq ok
  have hw := ok.wpos
  have hB : S.blockBytes = 16 * S.wordBytes := rfl
  have hlen : m.length = q * S.blockBytes + t.length := by rw [hm, List.length_append, hx]
  have hu : P.used c.bits = t.length := by
    rw [ct.used _ _ hc (by omega), hbl, mod_of_rep hlen ht]
  have hsh : P.shortLen = 14 * S.wordBytes := by
    unfold shortLen; rw [hbl, hB, ok.wlen]; omega
  have hput1 : (put c.buffer t.length [0x80]).length = S.blockBytes := by
    rw [length_put _ _ _ (by simp; omega), hb]
  have htk1 : (put c.buffer t.length [0x80]).take (t.length + 1) = t ++ [0x80] := by
    have := take_put c.buffer t.length [0x80] (by simp; omega)
    rw [htk] at this
    exact this
  have hpadz := pad_zeros S.blockBytes S.wordBytes m.length q t.length hB hlen ht
  have hB2 : S.blockBytes - 2 * S.wordBytes = 14 * S.wordBytes := by omega
  rw [hB2] at hpadz
  unfold final Spec.Sha2.hash Spec.Sha2.pad
  simp only [hu, hpadz, hbl, hsh]
  generalize put c.buffer t.length [0x80] = buf1 at hput1 htk1 ⊢
  -- the padded last block(s)
  by_cases hcase : t.length + 1 > 14 * S.wordBytes
  · rw [if_pos hcase, if_pos hcase]
    simp only
    have hz : (zeros (S.blockBytes - (t.length + 1))).length = S.blockBytes - (t.length + 1) := by simp
    have hput2 : put buf1 (t.length + 1) (zeros (S.blockBytes - (t.length + 1)))
        = t ++ [0x80] ++ zeros (S.blockBytes - (t.length + 1)) := by
      unfold put
      rw [List.drop_eq_nil_of_le (by rw [hz, hput1]; omega), htk1, List.append_nil]
    rw [hput2]
    have hblk : (t ++ [0x80] ++ zeros (S.blockBytes - (t.length + 1))).length = S.blockBytes := by
      rw [List.length_append, List.length_append, hz, List.length_singleton]; omega
    obtain ⟨s1, s2, s3⟩ := swapTransform_spec ok
      { c with buffer := t ++ [0x80] ++ zeros (S.blockBytes - (t.length + 1)) } (S.chain S.h0 x) hs hblk
    have hcb : cnt (P.swapTransform
        { c with buffer := t ++ [0x80] ++ zeros (S.blockBytes - (t.length + 1)) }).bits m.length := by
      rw [s3]; exact hc
    rw [Nat.sub_zero]
    have hput3 := take_put (P.swapTransform
        { c with buffer := t ++ [0x80] ++ zeros (S.blockBytes - (t.length + 1)) }).buffer 0
        (zeros (14 * S.wordBytes)) (by rw [s2]; simp; omega)
    rw [last_words ok ct _ _ m.length (by rw [length_put _ _ _ (by rw [s2]; simp; omega), s2]) hcb hl, s1,
      transform_eq ok _ _ (length_words hw 16 _ (by
        rw [List.length_append, List.length_take, length_put _ _ _ (by rw [s2]; simp; omega), s2,
          Spec.length_beBytes]; omega)), memWords_reverse ok]
    rw [Nat.zero_add, length_zeros] at hput3
    rw [hput3, List.take_zero, List.nil_append]
    congr 1
    rw [zeros_add, hm]
    have e : x ++ t ++ [0x80] ++ (zeros (S.blockBytes - (t.length + 1)) ++ zeros (14 * S.wordBytes))
        ++ Spec.beBytes (2 * S.wordBytes) (8 * (x ++ t).length)
        = x ++ ((t ++ [0x80] ++ zeros (S.blockBytes - (t.length + 1)))
          ++ (zeros (14 * S.wordBytes) ++ Spec.beBytes (2 * S.wordBytes) (8 * (x ++ t).length))) := by
      simp only [List.append_assoc]
    rw [e, chain_append hw _ q _ _ hx, chain_append hw _ 1 (t ++ [0x80] ++ zeros (S.blockBytes - (t.length + 1))) _
        (by rw [hblk]; omega), chain_one hw _ (t ++ [0x80] ++ zeros (S.blockBytes - (t.length + 1))) hblk,
      chain_one hw _ (zeros (14 * S.wordBytes) ++ _)
        (by rw [List.length_append, length_zeros, Spec.length_beBytes]; omega)]
  · rw [if_neg hcase, if_neg hcase]
    simp only
    have hz : (zeros (14 * S.wordBytes - (t.length + 1))).length = 14 * S.wordBytes - (t.length + 1) := by simp
    have hin : t.length + 1 + (zeros (14 * S.wordBytes - (t.length + 1))).length ≤ buf1.length := by
      rw [hz, hput1]; omega
    have hput3 := take_put buf1 (t.length + 1) (zeros (14 * S.wordBytes - (t.length + 1))) hin
    rw [hz, show t.length + 1 + (14 * S.wordBytes - (t.length + 1)) = 14 * S.wordBytes by omega, htk1] at hput3
    have hlp := length_put buf1 (t.length + 1) (zeros (14 * S.wordBytes - (t.length + 1))) hin
    rw [last_words ok ct _ _ m.length (by rw [hlp, hput1]) hc hl, hput3, hs,
      transform_eq ok _ _ (length_words hw 16 _ (by
        rw [List.length_append, List.length_append, List.length_append, hz, Spec.length_beBytes,
          List.length_singleton]; omega)), memWords_reverse ok]
    congr 1
    have e : m ++ [0x80] ++ zeros (14 * S.wordBytes - (t.length + 1))
        ++ Spec.beBytes (2 * S.wordBytes) (8 * m.length)
        = x ++ (t ++ [0x80] ++ zeros (14 * S.wordBytes - (t.length + 1))
          ++ Spec.beBytes (2 * S.wordBytes) (8 * m.length)) := by
      rw [hm]; simp only [List.append_assoc]
    rw [e, chain_append hw _ q _ _ hx, chain_one hw _ (t ++ _ ++ _ ++ _) (by
        rw [List.length_append, List.length_append, List.length_append, hz, Spec.length_beBytes,
          List.length_singleton]; omega)]

theorem length_hash (m : Bytes) : (S.hash m).length = 8 * S.wordBytes := by
  simp [Spec.Sha2.hash, Spec.Sha2.out, Spec.Regs.toList, Spec.length_beBytes]; omega

theorem raw_spec (ok : Sha2Ok P S) (ct : Sha2Count P S cnt) (m : Bytes) (hl : m.length < 2 ^ 61) :
    P.raw m = S.hash m := by
  have := rep_update ok ct _ [] m (rep_init ok ct) (by simpa using hl)
  exact final_spec ok ct _ _ this hl

end Sha2Code
end UB
