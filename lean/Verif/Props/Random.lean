import Verif.Model.Random
import Verif.Props.Mnemonic
import Verif.Lemmas.Ints

/-
C89: random phrases.
-/

namespace UB
open Spec

attribute [local irreducible] wordlist Spec.sha256 sha256

/-! ### The random bytes -/

/-- Words one after the other, least significant byte first. -/
def wordsLE (ws : List UInt32) : Bytes := ws.flatMap fun w => leBytes 4 w.toNat

theorem length_leBytes4 (k n : Nat) : (leBytes k n).length = k := by
  induction k generalizing n with
  | zero => rfl
  | succ k ih => rw [leBytes, List.length_cons, ih]

theorem length_wordsLE (ws : List UInt32) : (wordsLE ws).length = 4 * ws.length := by
  induction ws with
  | nil => rfl
  | cons w ws ih =>
    have : wordsLE (w :: ws) = leBytes 4 w.toNat ++ wordsLE ws := rfl
    rw [this, List.length_append, ih, length_leBytes4, List.length_cons]; omega

theorem random_byte (w : UInt32) (j : Nat) (hj : j < 4) : ((w >>> UInt32.ofNat (j * 8)) &&& 0xFF).toUInt8 = UInt8.ofNat (w.toNat / 256 ^ j % 256) := by
  apply UInt8.toNat_inj.1
  have h : (0xFF : UInt32).toNat = 2 ^ 8 - 1 := rfl
  rw [UInt32.toNat_toUInt8, UInt32.toNat_and, h, Nat.and_two_pow_sub_one_eq_mod, UInt32.toNat_shiftRight]
  have : (UInt32.ofNat (j * 8)).toNat % 32 = j * 8 := by
    rw [UInt32.toNat_ofNat']; omega
  rw [this, Nat.shiftRight_eq_div_pow, UInt8.toNat_ofNat', show (2 : Nat) ^ (j * 8) = 256 ^ j by rw [Nat.mul_comm, Nat.pow_mul]]

theorem randomBytes_four (draws : Nat → UInt32) (i k n : Nat) (r : UInt32) (hi : i % 4 = 0) :
    randomBytes draws i r k (n + 4) =
      (leBytes 4 (draws k).toNat ++ (randomBytes draws (i + 4) (draws k) (k + 1) n).1, (randomBytes draws (i + 4) (draws k) (k + 1) n).2) := by
  have h1 : (i + 1) % 4 = 1 := by omega
  have h2 : (i + 1 + 1) % 4 = 2 := by omega
  have h3 : (i + 1 + 1 + 1) % 4 = 3 := by omega
  simp only [randomBytes, hi, h1, h2, h3, if_true, if_neg (show ¬ (1 : Nat) = 0 by decide), if_neg (show ¬ (2 : Nat) = 0 by decide),
    if_neg (show ¬ (3 : Nat) = 0 by decide)]
  rw [random_byte _ 0 (by decide), random_byte _ 1 (by decide), random_byte _ 2 (by decide), random_byte _ 3 (by decide)]
  simp [leBytes, Nat.div_div_eq_div_mul]

theorem randomBytes_short (draws : Nat → UInt32) (i k n : Nat) (r : UInt32) (hi : i % 4 = 0) (hn : n < 4) :
    randomBytes draws i r k n = ((leBytes 4 (draws k).toNat).take n, k + (n + 3) / 4) := by
  have h1 : (i + 1) % 4 = 1 := by omega
  have h2 : (i + 1 + 1) % 4 = 2 := by omega
  have : n = 0 ∨ n = 1 ∨ n = 2 ∨ n = 3 := by omega
  rcases this with rfl | rfl | rfl | rfl
  · simp [randomBytes]
  all_goals
    simp only [randomBytes, hi, h1, h2, if_true, if_neg (show ¬ (1 : Nat) = 0 by decide), if_neg (show ¬ (2 : Nat) = 0 by decide)]
    simp only [random_byte _ 0 (by decide), random_byte _ 1 (by decide), random_byte _ 2 (by decide)]
    simp [leBytes, Nat.div_div_eq_div_mul]

theorem randomBytes_eq (draws : Nat → UInt32) (n : Nat) : ∀ (i k : Nat) (r : UInt32), i % 4 = 0 →
    randomBytes draws i r k n = ((wordsLE ((List.range ((n + 3) / 4)).map fun j => draws (k + j))).take n, k + (n + 3) / 4) := by
  induction n using Nat.strongRecOn with
  | ind n ih =>
    intro i k r hi
    by_cases h : n < 4
    · rw [randomBytes_short draws i k n r hi h]
      by_cases h0 : n = 0
      · subst h0; simp
      · rw [show (n + 3) / 4 = 1 by omega]
        simp [wordsLE]
    · obtain ⟨m, rfl⟩ : ∃ m, n = m + 4 := ⟨n - 4, by omega⟩
      rw [randomBytes_four draws i k m r hi, ih m (by omega) (i + 4) (k + 1) _ (by omega)]
      have hr : (m + 4 + 3) / 4 = (m + 3) / 4 + 1 := by omega
      rw [hr, List.range_succ_eq_map, List.map_cons, List.map_map]
      have hw : ∀ w ws, wordsLE (w :: ws) = leBytes 4 w.toNat ++ wordsLE ws := fun _ _ => rfl
      rw [hw, List.take_append, length_leBytes4, List.take_of_length_le (l := leBytes 4 _) (by rw [length_leBytes4]; omega), Nat.add_zero, show m + 4 - 4 = m by omega]
      refine Prod.ext ?_ (by dsimp only; omega)
      dsimp only
      congr 4
      funext j
      simp only [Function.comp]
      congr 1; omega

/-- C89: `random_buffer` writes the words that `random32` gives, least significant byte first and the last one cut, and calls it once for every
four bytes begun. -/
theorem C89_buffer (draws : Nat → UInt32) (k len : Nat) :
    randomBuffer draws k len = ((wordsLE ((List.range ((len + 3) / 4)).map fun j => draws (k + j))).take len, k + (len + 3) / 4) ∧
      (randomBuffer draws k len).1.length = len := by
  have h := randomBytes_eq draws len 0 k 0 rfl
  refine ⟨h, ?_⟩
  show (randomBytes draws 0 0 k len).1.length = len
  rw [h, List.length_take, length_wordsLE, List.length_map, List.length_range]
  omega

example : (randomBuffer (fun i => if i = 0 then 0x04030201 else 0x08070605) 0 6).1 = [1, 2, 3, 4, 5, 6] := by
  rw [(C89_buffer _ _ _).1]; decide

/-! ### Phrases are different for different entropy -/

theorem mnemonic_inj {e f : Bytes} (he : MnemonicSize e.length) (hf : MnemonicSize f.length) (h : mnemonic wordlist e = mnemonic wordlist f) : e = f := by
  have hw := spaced_inj (mnemonicWords_no_space e) (mnemonicWords_no_space f) (mnemonicWords_ne he) (mnemonicWords_ne hf) h
  obtain ⟨m, hm, -, hm8⟩ := MnemonicSize.form he
  obtain ⟨n, hn, -, hn8⟩ := MnemonicSize.form hf
  have hl : e.length = f.length := by
    have := congrArg List.length hw
    rw [mnemonicWords_length, mnemonicWords_length] at this
    omega
  have hb := congrArg wordBits hw
  rw [wordBits_mnemonic e m hm hm8, wordBits_mnemonic f n hn hn8] at hb
  unfold mnemonicBits at hb
  exact bytes8_inj (List.append_inj hb (by rw [length_bytes8, length_bytes8, hl])).1

theorem mnemonic_no_zero (e : Bytes) : (0 : UInt8) ∉ mnemonic wordlist e := by
  unfold mnemonic
  have : ∀ ps : List Bytes, (∀ p ∈ ps, (0 : UInt8) ∉ p) → (0 : UInt8) ∉ spaced ps := by
    intro ps h
    unfold spaced
    rw [show List.intercalate [(0x20 : UInt8)] ps = (ps.intersperse [0x20]).flatten from rfl, List.mem_flatten]
    rintro ⟨l, hl, h0⟩
    have hm : ∀ (qs : List Bytes), (∀ p ∈ qs, (0 : UInt8) ∉ p) → ∀ l ∈ qs.intersperse [0x20], (0 : UInt8) ∉ l := by
      intro qs
      induction qs with
      | nil => intro _ l hl; cases hl
      | cons q qs ih =>
        intro hq l hl
        cases qs with
        | nil => rw [List.intersperse_singleton, List.mem_singleton] at hl; rw [hl]; exact hq q (by simp)
        | cons q' qs =>
          rw [List.intersperse_cons₂, List.mem_cons, List.mem_cons] at hl
          rcases hl with rfl | rfl | hl
          · exact hq _ (by simp)
          · decide
          · exact ih (fun p hp => hq p (by simp [hp])) l hl
    exact hm ps h l hl h0
  apply this
  intro p hp h0
  have := ((wordlist_word (mnemonicWords_mem e p hp)).2.2 _ h0).2
  exact this rfl

theorem cstring_inj {a b r s : Bytes} (ha : (0 : UInt8) ∉ a) (hb : (0 : UInt8) ∉ b) (h : a ++ 0 :: r = b ++ 0 :: s) : a = b := by
  induction a generalizing b with
  | nil =>
    cases b with
    | nil => rfl
    | cons x b => simp at h; exact absurd h.1 (by intro hx; apply hb; rw [hx]; simp)
  | cons x a ih =>
    cases b with
    | nil => simp at h; exact absurd h.1 (by intro hx; apply ha; rw [hx]; simp)
    | cons y b =>
      simp at h
      rw [h.1, ih (fun hh => ha (by simp [hh])) (fun hh => hb (by simp [hh])) h.2]

/-! ### Random phrases -/

theorem count_form {n : UInt8} (hn : n = 12 ∨ n = 15 ∨ n = 18 ∨ n = 21 ∨ n = 24) :
    (decide (n < 12) || decide (n > 24) || n.toNat % 3 != 0) = false ∧ 4 ≤ n.toNat / 3 ∧ n.toNat / 3 ≤ 8 ∧ n.toNat = 3 * (n.toNat / 3) := by
  rcases hn with rfl | rfl | rfl | rfl | rfl <;> decide

theorem wordsLE_take (ws : List UInt32) (m : Nat) : (wordsLE ws).take (4 * m) = wordsLE (ws.take m) := by
  induction ws generalizing m with
  | nil => simp [wordsLE]
  | cons w ws ih =>
    have hw : ∀ w ws, wordsLE (w :: ws) = leBytes 4 w.toNat ++ wordsLE ws := fun _ _ => rfl
    cases m with
    | zero => simp [wordsLE]
    | succ m =>
      rw [List.take_succ_cons, hw, hw, List.take_append, length_leBytes4, List.take_of_length_le (l := leBytes 4 _) (by rw [length_leBytes4]; omega),
        show 4 * (m + 1) - 4 = 4 * m by omega, ih]

/-- C89: `generateMnemonic(n)` for 12, 15, 18, 21 or 24 words is the BIP39 phrase of the first `n/3` words that `random32` gives, least
significant byte first, whatever these words are; it calls `random32` eight times. -/
theorem C89_phrase (draws : Nat → UInt32) (k : Nat) (mnemo : Bytes) (b n : UInt8) (hm : mnemo.length = 240)
    (hn : n = 12 ∨ n = 15 ∨ n = 18 ∨ n = 21 ∨ n = 24) :
    ∃ rest, MnemonicSize (wordsLE ((List.range (n.toNat / 3)).map fun j => draws (k + j))).length ∧
      generateRandom draws k mnemo b n = .ok (some (mnemonic wordlist (wordsLE ((List.range (n.toNat / 3)).map fun j => draws (k + j))) ++ 0 :: rest), k + 8) := by
  obtain ⟨h1, h2⟩ := C89_buffer draws k 32
  obtain ⟨e, rest, he, hs, hr⟩ := C41_random mnemo (randomBuffer draws k 32).1 b n hm h2 hn
  obtain ⟨hc, h4, h8, h3⟩ := count_form hn
  have he' : e = wordsLE ((List.range (n.toNat / 3)).map fun j => draws (k + j)) := by
    rw [he, h1]
    dsimp only
    rw [List.take_take, Nat.min_eq_left (by omega), Nat.mul_comm, wordsLE_take, ← List.map_take, List.take_range,
      Nat.min_eq_left (by omega)]
  refine ⟨rest, he' ▸ hs, ?_⟩
  unfold generateRandom
  rw [if_neg (by rw [hc]; decide)]
  dsimp only
  rw [hr, C.bind_ok, h1, ← he']
  rfl

/-- C89: other counts of words are refused, and nothing is drawn. -/
theorem C89_other_counts (draws : Nat → UInt32) (k : Nat) (mnemo : Bytes) (b n : UInt8) (hn : ¬ (n = 12 ∨ n = 15 ∨ n = 18 ∨ n = 21 ∨ n = 24)) :
    generateRandom draws k mnemo b n = .ok (none, k) := by
  have hc : (decide (n < 12) || decide (n > 24) || n.toNat % 3 != 0) = true := by
    have : ∀ n : UInt8, ¬ (n = 12 ∨ n = 15 ∨ n = 18 ∨ n = 21 ∨ n = 24) → (decide (n < 12) || decide (n > 24) || n.toNat % 3 != 0) = true := by
      apply forall_byte; decide +kernel
    exact this n hn
  unfold generateRandom
  rw [if_pos hc]; rfl

theorem leBytes4_inj {v w : UInt32} (h : leBytes 4 v.toNat = leBytes 4 w.toNat) : v = w :=
  UInt32.toNat_inj.1 (leBytes_inj (k := 4) v.toNat_lt w.toNat_lt h)

theorem wordsLE_inj {vs ws : List UInt32} (h : wordsLE vs = wordsLE ws) : vs = ws := by
  induction vs generalizing ws with
  | nil =>
    have := congrArg List.length h
    rw [length_wordsLE, length_wordsLE] at this
    cases ws with
    | nil => rfl
    | cons w ws => simp at this
  | cons v vs ih =>
    cases ws with
    | nil =>
      have := congrArg List.length h
      rw [length_wordsLE, length_wordsLE] at this
      simp at this
    | cons w ws =>
      have hw : ∀ w ws, wordsLE (w :: ws) = leBytes 4 w.toNat ++ wordsLE ws := fun _ _ => rfl
      rw [hw, hw] at h
      obtain ⟨h1, h2⟩ := List.append_inj h (by rw [length_leBytes4, length_leBytes4])
      rw [leBytes4_inj h1, ih h2]

/-- C89: no randomness of the words used is lost: when two runs give the same phrase, they asked for the same number of words and drew the same
`n/3` words. -/
theorem C89_distinct (draws draws' : Nat → UInt32) (k k' c c' : Nat) (mnemo mnemo' t r r' : Bytes) (b b' n n' : UInt8) (hm : mnemo.length = 240)
    (hm' : mnemo'.length = 240) (ht : (0 : UInt8) ∉ t) (h : generateRandom draws k mnemo b n = .ok (some (t ++ 0 :: r), c))
    (h' : generateRandom draws' k' mnemo' b' n' = .ok (some (t ++ 0 :: r'), c')) : n = n' ∧ ∀ i < n.toNat / 3, draws (k + i) = draws' (k' + i) := by
  have hn : n = 12 ∨ n = 15 ∨ n = 18 ∨ n = 21 ∨ n = 24 := by
    by_cases hn : n = 12 ∨ n = 15 ∨ n = 18 ∨ n = 21 ∨ n = 24
    · exact hn
    · rw [C89_other_counts draws k mnemo b n hn] at h
      cases h
  have hn' : n' = 12 ∨ n' = 15 ∨ n' = 18 ∨ n' = 21 ∨ n' = 24 := by
    by_cases hn : n' = 12 ∨ n' = 15 ∨ n' = 18 ∨ n' = 21 ∨ n' = 24
    · exact hn
    · rw [C89_other_counts draws' k' mnemo' b' n' hn] at h'
      cases h'
  obtain ⟨s, hs, g⟩ := C89_phrase draws k mnemo b n hm hn
  obtain ⟨s', hs', g'⟩ := C89_phrase draws' k' mnemo' b' n' hm' hn'
  rw [h] at g
  rw [h'] at g'
  injection g with g; injection g with g; injection g with g
  injection g' with g'; injection g' with g'; injection g' with g'
  have e1 := cstring_inj ht (mnemonic_no_zero _) g
  have e2 := cstring_inj ht (mnemonic_no_zero _) g'
  have e3 := wordsLE_inj (mnemonic_inj hs hs' (e1.symm.trans e2))
  obtain ⟨-, -, -, c1⟩ := count_form hn
  obtain ⟨-, -, -, c2⟩ := count_form hn'
  have hl := congrArg List.length e3
  rw [List.length_map, List.length_map, List.length_range, List.length_range] at hl
  refine ⟨UInt8.toNat_inj.1 (by omega), ?_⟩
  intro i hi
  have := congrArg (fun l => l[i]?) e3
  simpa [hi, ← hl] using this

/-- Four bytes as a word. -/
theorem word_of_bytes (e : Bytes) (m : Nat) (he : e.length = 4 * m) : ∃ ws : List UInt32, ws.length = m ∧ wordsLE ws = e := by
  induction m generalizing e with
  | zero => exact ⟨[], rfl, (List.length_eq_zero_iff.1 he).symm⟩
  | succ m ih =>
    obtain ⟨ws, h1, h2⟩ := ih (e.drop 4) (by rw [List.length_drop]; omega)
    refine ⟨UInt32.ofNat (leValue (e.take 4)) :: ws, by rw [List.length_cons, h1], ?_⟩
    have hw : ∀ w ws, wordsLE (w :: ws) = leBytes 4 w.toNat ++ wordsLE ws := fun _ _ => rfl
    have hl : (e.take 4).length = 4 := by rw [List.length_take]; omega
    have hlt := leValue_lt (e.take 4)
    rw [hl] at hlt
    rw [hw, h2, UInt32.toNat_ofNat_of_lt' hlt]
    have := leBytes_leValue (e.take 4)
    rw [hl] at this
    rw [this, List.take_append_drop]

/-- C89: every BIP39 phrase can be drawn. -/
theorem C89_every (e mnemo : Bytes) (b : UInt8) (hm : mnemo.length = 240) (he : MnemonicSize e.length) :
    ∃ draws rest, generateRandom draws 0 mnemo b (UInt8.ofNat (e.length / 4 * 3)) = .ok (some (mnemonic wordlist e ++ 0 :: rest), 8) := by
  obtain ⟨m, hm4, h4, h8⟩ := MnemonicSize.form he
  obtain ⟨ws, h1, h2⟩ := word_of_bytes e m hm4
  have hn : (UInt8.ofNat (e.length / 4 * 3)).toNat / 3 = m := by
    rw [UInt8.toNat_ofNat']; omega
  have hn' : UInt8.ofNat (e.length / 4 * 3) = 12 ∨ UInt8.ofNat (e.length / 4 * 3) = 15 ∨ UInt8.ofNat (e.length / 4 * 3) = 18 ∨
      UInt8.ofNat (e.length / 4 * 3) = 21 ∨ UInt8.ofNat (e.length / 4 * 3) = 24 := by
    unfold MnemonicSize at he
    rcases he with h | h | h | h | h <;> rw [h] <;> decide
  obtain ⟨rest, -, h⟩ := C89_phrase (fun i => ws.getD i 0) 0 mnemo b _ hm hn'
  refine ⟨fun i => ws.getD i 0, rest, ?_⟩
  rw [h, hn]
  have : ((List.range m).map fun j => ws.getD (0 + j) 0) = ws := by
    apply List.ext_getElem
    · simp [h1]
    · intro i g1 g2
      simp [List.getD_eq_getElem?_getD, g2]
  rw [this, h2]

/-! ### The generators -/

theorem wordsLE_top (ws : List UInt32) (j : Nat) (x : UInt8) (h : (wordsLE ws)[4 * j + 3]? = some x) : ∃ w, ws[j]? = some w ∧ x.toNat = w.toNat / 2 ^ 24 := by
  induction ws generalizing j with
  | nil => simp [wordsLE] at h
  | cons w ws ih =>
    have hw : ∀ w ws, wordsLE (w :: ws) = leBytes 4 w.toNat ++ wordsLE ws := fun _ _ => rfl
    rw [hw] at h
    cases j with
    | zero =>
      refine ⟨w, rfl, ?_⟩
      have hlt := w.toNat_lt
      simp [leBytes] at h
      rw [← h, UInt8.toNat_ofNat']
      omega
    | succ j =>
      rw [List.getElem?_append_right (by rw [length_leBytes4]; omega), length_leBytes4, show 4 * (j + 1) + 3 - 4 = 4 * j + 3 by omega] at h
      obtain ⟨v, h1, h2⟩ := ih j h
      exact ⟨v, by simpa using h1, h2⟩

/-- C89 (finding): on a PC `random32` is `rand()`, which is never negative: no phrase whose entropy has the top bit set in byte 3, 7, 11, … is ever
generated, whatever `rand()` returns.  For twelve words these are fifteen out of sixteen phrases, for twenty-four words 255 out of 256. -/
theorem C89_pc_never (r : Nat → Nat) (hr : ∀ i, r i < 2 ^ 31) (k c j : Nat) (x : UInt8) (e mnemo rest : Bytes) (b n : UInt8) (hm : mnemo.length = 240)
    (he : MnemonicSize e.length) (hx : e[4 * j + 3]? = some x) (h80 : 0x80 ≤ x) :
    generateRandom (fun i => random32Pc (r i)) k mnemo b n ≠ .ok (some (mnemonic wordlist e ++ 0 :: rest), c) := by
  intro h
  have hn : n = 12 ∨ n = 15 ∨ n = 18 ∨ n = 21 ∨ n = 24 := by
    by_cases hn : n = 12 ∨ n = 15 ∨ n = 18 ∨ n = 21 ∨ n = 24
    · exact hn
    · rw [C89_other_counts _ k mnemo b n hn] at h
      cases h
  obtain ⟨s, hs, g⟩ := C89_phrase (fun i => random32Pc (r i)) k mnemo b n hm hn
  rw [h] at g
  injection g with g; injection g with g; injection g with g
  have e1 := mnemonic_inj he hs (cstring_inj (mnemonic_no_zero _) (mnemonic_no_zero _) g)
  rw [e1] at hx
  obtain ⟨w, h1, h2⟩ := wordsLE_top _ _ _ hx
  rw [List.getElem?_map] at h1
  obtain ⟨i, -, h1⟩ := Option.map_eq_some_iff.1 h1
  have h3 := hr (k + i)
  have h4 : w.toNat = r (k + i) := by
    rw [← h1]
    exact UInt32.toNat_ofNat_of_lt' (Nat.lt_of_lt_of_le h3 (by decide))
  have h5 : (0x80 : UInt8).toNat ≤ x.toNat := UInt8.le_iff_toNat_le.1 h80
  have h6 : (0x80 : UInt8).toNat = 128 := rfl
  omega

/-- The hypotheses are met by sixteen bytes `ff`. -/
example (mnemo rest : Bytes) (hm : mnemo.length = 240) :
    generateRandom (fun i => random32Pc (i * 7919 % 2 ^ 31)) 0 mnemo 0 12 ≠ .ok (some (mnemonic wordlist (List.replicate 16 0xff) ++ 0 :: rest), 8) :=
  C89_pc_never (fun i => i * 7919 % 2 ^ 31) (fun i => Nat.mod_lt _ (by decide)) 0 8 0 0xff _ mnemo rest 0 12 hm (.inl rfl) rfl (by decide)

/-- C89 (finding): on the ESP8266 a bit of `random32` is the disjunction of up to four bits of the hardware register, because whole words are or-ed
where bytes were meant: bits 24 to 31 are clear only if four hardware bits are, so that they are set fifteen times out of sixteen. -/
theorem C89_esp8266 (v1 v2 v3 v4 : UInt32) (i : Nat) (hi : i < 32) :
    (random32Esp8266 v1 v2 v3 v4).toNat.testBit i =
      (v4.toNat.testBit i || (decide (8 ≤ i) && v3.toNat.testBit (i - 8)) || (decide (16 ≤ i) && v2.toNat.testBit (i - 16)) ||
        (decide (24 ≤ i) && v1.toNat.testBit (i - 24))) := by
  have step : ∀ (a v : UInt32) (i : Nat), i < 32 → ((a <<< 8) ||| v).toNat.testBit i = ((decide (8 ≤ i) && a.toNat.testBit (i - 8)) || v.toNat.testBit i) := by
    intro a v i hi
    rw [UInt32.toNat_or, Nat.testBit_or, UInt32.toNat_shiftLeft, show (8 : UInt32).toNat % 32 = 8 from rfl, Nat.testBit_mod_two_pow, Nat.testBit_shiftLeft]
    simp [hi]
  unfold random32Esp8266
  simp only [List.foldl_cons, List.foldl_nil]
  rw [step _ _ i hi]
  by_cases h8 : 8 ≤ i
  · rw [step _ _ (i - 8) (by omega)]
    by_cases h16 : 16 ≤ i
    · rw [step _ _ (i - 8 - 8) (by omega)]
      by_cases h24 : 24 ≤ i
      · rw [step _ _ (i - 8 - 8 - 8) (by omega)]
        have e1 : i - 8 - 8 = i - 16 := by omega
        have e2 : i - 16 - 8 = i - 24 := by omega
        have e3 : 8 ≤ i - 8 := by omega
        have e4 : 8 ≤ i - 16 := by omega
        simp [h8, h16, h24, e1, e2, e3, e4, Bool.or_comm, Bool.or_assoc, Bool.or_left_comm]
      · have e1 : i - 8 - 8 = i - 16 := by omega
        have e3 : 8 ≤ i - 8 := by omega
        have e4 : ¬ 8 ≤ i - 16 := by omega
        simp [h8, h16, h24, e1, e3, e4, Bool.or_comm, Bool.or_left_comm, Bool.or_assoc]
    · have e3 : ¬ 8 ≤ i - 8 := by omega
      have h24 : ¬ 24 ≤ i := by omega
      simp [h8, h16, h24, e3, Bool.or_comm]
  · have h24 : ¬ 24 ≤ i := by omega
    have h16 : ¬ 16 ≤ i := by omega
    simp [h8, h16, h24]

attribute [local semireducible] wordlist Spec.sha256 sha256

theorem prng_words : ((List.range 4).map fun j => prngDraws (0 + j)) = [3210414086, 1932810334, 3154934685, 3186383582] := by decide +kernel

/-- The words "alcohol drift used royal local degree invest ghost rubber version robot knife". -/
def prngPhrase : Bytes :=
  [0x61, 0x6c, 0x63, 0x6f, 0x68, 0x6f, 0x6c, 0x20, 0x64, 0x72, 0x69, 0x66, 0x74, 0x20, 0x75, 0x73, 0x65, 0x64, 0x20, 0x72, 0x6f, 0x79, 0x61, 0x6c, 0x20,
   0x6c, 0x6f, 0x63, 0x61, 0x6c, 0x20, 0x64, 0x65, 0x67, 0x72, 0x65, 0x65, 0x20, 0x69, 0x6e, 0x76, 0x65, 0x73, 0x74, 0x20, 0x67, 0x68, 0x6f, 0x73, 0x74, 0x20,
   0x72, 0x75, 0x62, 0x62, 0x65, 0x72, 0x20, 0x76, 0x65, 0x72, 0x73, 0x69, 0x6f, 0x6e, 0x20, 0x72, 0x6f, 0x62, 0x6f, 0x74, 0x20, 0x6b, 0x6e, 0x69, 0x66, 0x65]

theorem prng_phrase : mnemonic wordlist (wordsLE [3210414086, 1932810334, 3154934685, 3186383582]) = prngPhrase := by decide +kernel

theorem stm_zeros : wordsLE (List.replicate 4 0) = zeros 16 := by decide

attribute [local irreducible] wordlist Spec.sha256 sha256

/-- C89 (finding): with the fallback generator the first twelve words are always the same. -/
theorem C89_prng (mnemo : Bytes) (b : UInt8) (hm : mnemo.length = 240) :
    ∃ rest, generateRandom prngDraws 0 mnemo b 12 = .ok (some (prngPhrase ++ 0 :: rest), 8) := by
  obtain ⟨rest, -, h⟩ := C89_phrase prngDraws 0 mnemo b 12 hm (.inl rfl)
  refine ⟨rest, ?_⟩
  rw [h, show (12 : UInt8).toNat / 3 = 4 from rfl, prng_words, prng_phrase]

/-- C89 (finding): on the STM32 boards a generator that does not become ready is not reported: the phrase is that of zeros. -/
theorem C89_stm_not_ready (hw : Nat → Option UInt32) (k : Nat) (mnemo : Bytes) (b : UInt8) (hm : mnemo.length = 240) (h0 : ∀ i < 4, hw (k + i) = none) :
    ∃ rest, generateRandom (fun i => random32Stm32 (hw i)) k mnemo b 12 = .ok (some (spaced (List.replicate 11 abandon ++ [about]) ++ 0 :: rest), k + 8) := by
  obtain ⟨rest, -, h⟩ := C89_phrase (fun i => random32Stm32 (hw i)) k mnemo b 12 hm (.inl rfl)
  refine ⟨rest, ?_⟩
  have : ((List.range ((12 : UInt8).toNat / 3)).map fun j => random32Stm32 (hw (k + j))) = List.replicate 4 0 := by
    rw [show (12 : UInt8).toNat / 3 = 4 from rfl]
    apply List.ext_getElem
    · simp
    · intro i g1 g2
      have : i < 4 := by simpa using g2
      simp only [List.getElem_map, List.getElem_range, List.getElem_replicate, h0 i this]
      rfl
  rw [h, this, stm_zeros, vector_zeros]

end UB
