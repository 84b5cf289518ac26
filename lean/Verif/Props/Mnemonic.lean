import Verif.Lemmas.Mnemonic
import Verif.Lemmas.WordlistHash
import Verif.Props.Hash

/-
C41, C42: mnemonic phrases.
-/

namespace UB
open Spec

attribute [local irreducible] wordlist Spec.sha256 sha256

/-! ### Eleven bits -/

theorem bitsOf_bitsValue (l : List Bool) : bitsOf l.length (bitsValue l) = l := by
  induction l with
  | nil => rfl
  | cons x l ih =>
    rw [List.length_cons, bitsOf_succ, bitsValue_cons]
    have hlt := bitsValue_lt l
    congr 1
    · cases x
      · simp only [Bool.toNat_false, Nat.zero_mul, Nat.zero_add]
        exact Nat.testBit_eq_false_of_lt hlt
      · simp only [Bool.toNat_true, Nat.one_mul]
        rw [Nat.testBit_two_pow_add_eq, Nat.testBit_eq_false_of_lt hlt]
        rfl
    · rw [← bitsOf_mod l.length l.length _ (Nat.le_refl _), Nat.add_comm, Nat.add_mul_mod_self_right, Nat.mod_eq_of_lt hlt, ih]

theorem bitsValue_bitsOf (w k : Nat) (h : k < 2 ^ w) : bitsValue (bitsOf w k) = k := by
  have h1 := bitsOf_bitsValue (bitsOf w k)
  have h2 := bitsValue_lt (bitsOf w k)
  rw [length_bitsOf] at h1 h2
  exact bitsOf_inj w _ _ h2 h h1

theorem groups11_join (n : Nat) (l : List Bool) (h : l.length = 11 * n) : (groups11 n l).flatMap (bitsOf 11) = l := by
  induction n generalizing l with
  | zero => rw [List.length_eq_zero_iff.mp h]; rfl
  | succ n ih =>
    rw [groups11, List.flatMap_cons, ih _ (by rw [List.length_drop]; omega)]
    have : (l.take 11).length = 11 := by rw [List.length_take]; omega
    have := bitsOf_bitsValue (l.take 11)
    rw [‹(l.take 11).length = 11›] at this
    rw [this, List.take_append_drop]

theorem groups11_split (ks : List Nat) (h : ∀ k ∈ ks, k < 2048) : groups11 ks.length (ks.flatMap (bitsOf 11)) = ks := by
  induction ks with
  | nil => rfl
  | cons k ks ih =>
    rw [List.flatMap_cons, List.length_cons, groups11, List.take_left' (length_bitsOf _ _), List.drop_left' (length_bitsOf _ _), ih fun x hx => h x (by simp [hx]),
      bitsValue_bitsOf 11 k (h k (by simp))]

theorem groups11_length (n : Nat) (l : List Bool) : (groups11 n l).length = n := by
  induction n generalizing l with
  | zero => rfl
  | succ n ih => rw [groups11, List.length_cons, ih]

theorem groups11_lt (n : Nat) (l : List Bool) : ∀ k ∈ groups11 n l, k < 2048 := by
  induction n generalizing l with
  | zero => intro k hk; cases hk
  | succ n ih =>
    intro k hk
    rw [groups11] at hk
    rcases List.mem_cons.mp hk with rfl | hk
    · exact lt_of_lt_of_le (bitsValue_lt _) (show 2 ^ _ ≤ 2 ^ 11 from Nat.pow_le_pow_right (by omega) (by rw [List.length_take]; omega))
    · exact ih _ k hk

theorem getD_mem {k : Nat} (h : k < 2048) : wordlist.getD k [] ∈ wordlist := by
  obtain ⟨w, h1, h2⟩ := wordlist_some h
  rw [List.getD_eq_getElem?_getD, h1]
  exact h2

theorem idxOf_getD {k : Nat} (h : k < 2048) : wordlist.idxOf (wordlist.getD k []) = k := by
  have hl : k < wordlist.length := by rw [wordlist_length]; exact h
  rw [List.getD_eq_getElem _ _ hl]
  exact wordlist_nodup.idxOf_getElem _ hl

theorem getD_idxOf {w : Bytes} (h : w ∈ wordlist) : wordlist.getD (wordlist.idxOf w) [] = w := by
  have hl := List.idxOf_lt_length_of_mem h
  rw [List.getD_eq_getElem _ _ hl]
  exact List.getElem_idxOf hl

/-! ### Bits of the phrase -/

theorem bytes_take (D : Bytes) (i : Nat) : (D.flatMap bits8).take (8 * i) = (D.take i).flatMap bits8 := by
  rw [← List.take_append_drop i D, List.flatMap_append]
  by_cases h : i ≤ D.length
  · rw [List.take_left' (by rw [length_bytes8, List.length_take, Nat.min_eq_left h]), List.take_left' (by rw [List.length_take]; omega)]
  · rw [List.drop_eq_nil_of_le (by omega), List.flatMap_nil, List.append_nil, List.append_nil, List.take_take, Nat.min_self,
      List.take_of_length_le (by rw [length_bytes8, List.length_take]; omega)]

theorem bytes_drop (D : Bytes) (i : Nat) : (D.flatMap bits8).drop (8 * i) = (D.drop i).flatMap bits8 := by
  have h := bytes_take D i
  have h2 : (D.flatMap bits8).take (8 * i) ++ (D.flatMap bits8).drop (8 * i) = (D.take i).flatMap bits8 ++ (D.drop i).flatMap bits8 := by
    rw [List.take_append_drop, ← List.flatMap_append, List.take_append_drop]
  rw [h] at h2
  exact List.append_cancel_left h2

/-- Entropy of `4 * m` bytes and a byte with the checksum. -/
theorem checked_bits (e h t : Bytes) (c : UInt8) (m : Nat) (he : e.length = 4 * m) (hm : m ≤ 8) (hs : Spec.sha256 e = c :: t) :
    ((e ++ c :: h).flatMap bits8).take (33 * m) = mnemonicBits e := by
  unfold mnemonicBits
  rw [hs, he, List.flatMap_append, List.flatMap_cons, List.flatMap_cons, Nat.mul_div_cancel_left _ (by omega), List.take_append, length_bytes8, he,
    List.take_of_length_le (by rw [length_bytes8]; omega), show 33 * m - 8 * (4 * m) = m by omega,
    List.take_append_of_le_length (by rw [length_bits8]; exact hm), List.take_append_of_le_length (by rw [length_bits8]; exact hm)]

theorem sha256_cons (e : Bytes) : ∃ c t, Spec.sha256 e = c :: t ∧ t.length = 31 := by
  have := length_sha256 e
  match h : Spec.sha256 e with
  | [] => rw [h] at this; cases this
  | c :: t => exact ⟨c, t, rfl, by rw [h] at this; simpa using this⟩

theorem mnemonicBits_length (e : Bytes) (m : Nat) (he : e.length = 4 * m) (hm : m ≤ 8) : (mnemonicBits e).length = 33 * m := by
  obtain ⟨c, t, hs, ht⟩ := sha256_cons e
  rw [← checked_bits e t t c m he hm hs, List.length_take, length_bytes8]
  simp [he, ht]
  omega

theorem wordBits_mnemonic (e : Bytes) (m : Nat) (he : e.length = 4 * m) (hm : m ≤ 8) : wordBits (mnemonicWords wordlist e) = mnemonicBits e := by
  have hl := mnemonicBits_length e m he hm
  unfold wordBits mnemonicWords
  rw [List.flatMap_map, show e.length / 4 * 3 = 3 * m by omega]
  have : ∀ ks : List Nat, (∀ k ∈ ks, k < 2048) → (ks.flatMap fun k => bitsOf 11 (wordlist.idxOf (wordlist.getD k []))) = ks.flatMap (bitsOf 11) := by
    intro ks h
    induction ks with
    | nil => rfl
    | cons k ks ih => rw [List.flatMap_cons, List.flatMap_cons, ih fun x hx => h x (by simp [hx]), idxOf_getD (h k (by simp))]
  rw [this _ (groups11_lt _ _), groups11_join _ _ (by rw [hl]; omega)]

theorem words_of_bits (ps : List Bytes) (e : Bytes) (m : Nat) (he : e.length = 4 * m) (hl : ps.length = 3 * m) (hw : ∀ p ∈ ps, p ∈ wordlist)
    (h : wordBits ps = mnemonicBits e) : ps = mnemonicWords wordlist e := by
  have h1 : wordBits ps = (ps.map wordlist.idxOf).flatMap (bitsOf 11) := by rw [List.flatMap_map]; rfl
  have h2 := groups11_split (ps.map wordlist.idxOf) (by
    intro k hk
    rw [List.mem_map] at hk
    obtain ⟨p, hp, rfl⟩ := hk
    rw [← wordlist_length]
    exact List.idxOf_lt_length_of_mem (hw p hp))
  rw [← h1, h, List.length_map, hl] at h2
  unfold mnemonicWords
  rw [show e.length / 4 * 3 = 3 * m by omega, h2, List.map_map]
  symm
  calc ps.map ((fun k => wordlist.getD k []) ∘ wordlist.idxOf) = ps.map id := by
        apply List.map_congr_left
        intro p hp
        exact getD_idxOf (hw p hp)
    _ = ps := List.map_id _

theorem mnemonicWords_mem (e : Bytes) : ∀ p ∈ mnemonicWords wordlist e, p ∈ wordlist := by
  intro p hp
  unfold mnemonicWords at hp
  rw [List.mem_map] at hp
  obtain ⟨k, hk, rfl⟩ := hp
  exact getD_mem (groups11_lt _ _ k hk)

theorem mnemonicWords_length (e : Bytes) : (mnemonicWords wordlist e).length = e.length / 4 * 3 := by
  unfold mnemonicWords; rw [List.length_map, groups11_length]

theorem mnemonicWords_no_space (e : Bytes) : ∀ p ∈ mnemonicWords wordlist e, (0x20 : UInt8) ∉ p :=
  fun p hp h => ((wordlist_word (mnemonicWords_mem e p hp)).2.2 _ h).1 rfl

theorem spaced_length (ps : List Bytes) (h : ∀ p ∈ ps, p.length ≤ 8) : (spaced ps).length ≤ 9 * ps.length := by
  induction ps with
  | nil => simp [spaced, List.intercalate]
  | cons p ps ih =>
    have hp := h p (by simp)
    have := ih fun q hq => h q (by simp [hq])
    match ps with
    | [] => rw [spaced_one]; simp; omega
    | q :: ps => rw [spaced_cons, List.length_append, List.length_cons, List.length_cons]; omega

theorem mnemonic_length (e : Bytes) (h : e.length ≤ 32) : (mnemonic wordlist e).length < 240 := by
  have h1 := spaced_length (mnemonicWords wordlist e) fun p hp => (wordlist_word (mnemonicWords_mem e p hp)).2.1
  have h2 := mnemonicWords_length e
  unfold mnemonic
  omega

/-! ### C41 -/

/-- C41: the word list is the English one published with BIP39 (2048 words, by the SHA-256 of the file). -/
theorem C41_wordlist : wordlist.length = 2048 ∧ Spec.sha256 (wordlist.flatMap (· ++ [10])) =
    Spec.beBytes 32 0x2f5eed53a4727b4bf8880d8f3f199efc90e58503646d9ff8eff3a2ed3b24dbda := ⟨wordlist_length, wordlist_hash⟩

theorem MnemonicSize.form {n : Nat} (h : MnemonicSize n) : ∃ m, n = 4 * m ∧ 4 ≤ m ∧ m ≤ 8 := by
  rcases h with rfl | rfl | rfl | rfl | rfl
  · exact ⟨4, rfl, by omega, by omega⟩
  · exact ⟨5, rfl, by omega, by omega⟩
  · exact ⟨6, rfl, by omega, by omega⟩
  · exact ⟨7, rfl, by omega, by omega⟩
  · exact ⟨8, rfl, by omega, by omega⟩

/-- C41: the phrase is that of BIP39, for every entropy, and fits into the buffer. -/
theorem C41_phrase (mnemo : Bytes) (junk : UInt8) (e : Bytes) (hm : mnemo.length = 240) (he : MnemonicSize e.length) :
    mnemonicFromData mnemo junk e = .ok (some (mnemonic wordlist e ++ 0 :: mnemo.drop ((mnemonic wordlist e).length + 1))) := by
  obtain ⟨m, h1, h2, h3⟩ := MnemonicSize.form he
  obtain ⟨c, t, hs, ht⟩ := sha256_cons e
  have hsha : sha256 e = c :: t := by rw [sha256_eq e (by omega), hs]
  unfold mnemonicFromData
  rw [if_neg (by simp; omega), hsha]
  have hc : byteAt (c :: t ++ [junk]) 0 = .ok c := rfl
  dsimp only
  rw [hc, C.bind_ok, store_set _ _ _ (by simp [ht]; omega), C.bind_ok]
  have hst : store ((c :: t ++ [junk]).set e.length c) 0 e = .ok (e ++ c :: ((c :: t ++ [junk]).drop (e.length + 1))) := by
    have := store_put_mid [] ((c :: t ++ [junk]).set e.length c) e (by simp [ht]; omega)
    rw [List.nil_append, List.length_nil, List.nil_append] at this
    rw [this, List.drop_set, if_neg (by omega), Nat.sub_self]
    have hlt : e.length < (c :: t ++ [junk]).length := by simp [ht]; omega
    rw [List.drop_eq_getElem_cons hlt, List.set_cons_zero]
  rw [hst, C.bind_ok]
  generalize hB : e ++ c :: ((c :: t ++ [junk]).drop (e.length + 1)) = B
  have hBl : B.length = 33 := by rw [← hB]; simp [ht]; omega
  have hmlen : e.length * 3 / 4 = (3 * m - 1) + 1 := by omega
  rw [hmlen, putWords B mnemo _ (by rw [hBl]; omega) hm _ (Nat.le_refl _) (by omega), C.bind_ok, textTo_all]
  have hw : (List.range (3 * m - 1 + 1)).map (wordOf B) = mnemonicWords wordlist e := by
    unfold mnemonicWords wordOf
    rw [groups11_eq, List.map_map, show e.length / 4 * 3 = 3 * m - 1 + 1 by omega, ← checked_bits e ((c :: t ++ [junk]).drop (e.length + 1)) t c m h1 h3 hs, hB]
    apply List.map_congr_left
    intro i hi
    rw [List.mem_range] at hi
    simp only [Function.comp]
    rw [List.drop_take, List.take_take, Nat.min_eq_left (by omega)]
  rw [hw]
  show C.ok (some _) = C.ok (some _)
  rw [show spaced (mnemonicWords wordlist e) = mnemonic wordlist e from rfl, List.append_assoc, List.length_append]
  rfl

/-- C41: other sizes are refused. -/
theorem C41_other_sizes (mnemo : Bytes) (junk : UInt8) (e : Bytes) (he : ¬ MnemonicSize e.length) : mnemonicFromData mnemo junk e = .ok none := by
  unfold mnemonicFromData
  rw [if_pos]
  · rfl
  · by_contra hh
    simp only [Bool.or_eq_true, bne_iff_ne, decide_eq_true_eq] at hh
    apply he
    unfold MnemonicSize
    omega

/-- Sizes of phrases that the decoder takes: 12, 18 or 24 words, all in the list. -/
def GoodWords (ps : List Bytes) : Prop := (ps.length = 12 ∨ ps.length = 18 ∨ ps.length = 24) ∧ ∀ p ∈ ps, p ∈ wordlist

theorem toBits_spec (ps : List Bytes) (hps : ∀ p ∈ ps, (0x20 : UInt8) ∉ p) (hne : ps ≠ []) (hl : (spaced ps).length + 1 < 2 ^ 32) (ent : Bytes)
    (hent : ent.length = 33) :
    (GoodWords ps → ∃ B, mnemonicToBits (spaced ps) ent = .ok (ps.length * 11, B) ∧ Filled B (wordBits ps)) ∧
    (¬ GoodWords ps → mnemonicToBits (spaced ps) ent = .ok (0, ent)) := by
  have hc := countWords_eq ps hps hne hl
  have hcond : (countWords (spaced ps) != 12 && countWords (spaced ps) != 18 && countWords (spaced ps) != 24) = true ↔
      ¬ (ps.length = 12 ∨ ps.length = 18 ∨ ps.length = 24) := by
    simp only [Bool.and_eq_true, bne_iff_ne, ne_eq, ← UInt32.toNat_inj, hc]
    show ((¬ ps.length = 12 ∧ ¬ ps.length = 18) ∧ ¬ ps.length = 24) ↔ _
    omega
  by_cases hn : ps.length = 12 ∨ ps.length = 18 ∨ ps.length = 24
  · have hsp : spaced ps ≠ [] := by
      match ps, hn with
      | p :: q :: ps, _ => rw [spaced_cons]; simp
      | [], h => simp at h
      | [p], h => simp at h
    obtain ⟨g1, g2⟩ := loop_spec ps hps (spaced ps).length (zeros 33) [] Filled.start (by rw [List.length_nil]; omega) hne hsp (Nat.le_refl _)
    rw [List.length_nil, Nat.zero_add] at g1 g2
    unfold mnemonicToBits
    dsimp only
    rw [if_neg (by rw [hcond]; exact fun h => h hn), hc]
    constructor
    · intro hg
      obtain ⟨B, h1, h2⟩ := g1 hg.2
      refine ⟨B, ?_, by simpa using h2⟩
      rw [h1, C.bind_ok]
      dsimp only
      rw [if_neg (by simp; omega)]
      have := store_put_mid [] ent B (by rw [hent, h2.size])
      rw [List.nil_append, List.length_nil, List.nil_append, List.drop_eq_nil_of_le (by rw [hent, h2.size]), List.append_nil] at this
      rw [this]
      rfl
    · intro hg
      have : ∃ p ∈ ps, p ∉ wordlist := by
        by_contra hh
        push Not at hh
        exact hg ⟨hn, hh⟩
      rcases g2 this with h1 | ⟨B, bi, h1, h2⟩
      · rw [h1, C.bind_ok]; rfl
      · rw [h1, C.bind_ok]
        dsimp only
        rw [if_pos (by simp; omega)]
        rfl
  · have : mnemonicToBits (spaced ps) ent = .ok (0, ent) := by
      unfold mnemonicToBits
      dsimp only
      rw [if_pos (hcond.mpr hn)]
      rfl
    exact ⟨fun h => absurd h.1 hn, fun _ => this⟩

theorem mask4 (b c : UInt8) : (b &&& 0xF0 == c &&& 0xF0) = true ↔ (bits8 b).take 4 = (bits8 c).take 4 := by
  have h : ∀ b : UInt8, (b &&& 0xF0).toNat = 16 * bitsValue ((bits8 b).take 4) := by apply forall_byte; decide +kernel
  rw [beq_iff_eq, ← UInt8.toNat_inj, h, h]
  constructor
  · intro e
    have e' : bitsValue ((bits8 b).take 4) = bitsValue ((bits8 c).take 4) := by omega
    have h1 := bitsOf_bitsValue ((bits8 b).take 4)
    have h2 := bitsOf_bitsValue ((bits8 c).take 4)
    rw [e'] at h1
    exact h1.symm.trans h2
  · intro e; rw [e]

theorem mask6 (b c : UInt8) : (b &&& 0xFC == c &&& 0xFC) = true ↔ (bits8 b).take 6 = (bits8 c).take 6 := by
  have h : ∀ b : UInt8, (b &&& 0xFC).toNat = 4 * bitsValue ((bits8 b).take 6) := by apply forall_byte; decide +kernel
  rw [beq_iff_eq, ← UInt8.toNat_inj, h, h]
  constructor
  · intro e
    have e' : bitsValue ((bits8 b).take 6) = bitsValue ((bits8 c).take 6) := by omega
    have h1 := bitsOf_bitsValue ((bits8 b).take 6)
    have h2 := bitsOf_bitsValue ((bits8 c).take 6)
    rw [e'] at h1
    exact h1.symm.trans h2
  · intro e; rw [e]

theorem mask8 (b c : UInt8) : (b == c) = true ↔ (bits8 b).take 8 = (bits8 c).take 8 := by
  rw [beq_iff_eq, List.take_of_length_le (by rw [length_bits8]), List.take_of_length_le (by rw [length_bits8])]
  exact ⟨fun h => by rw [h], bits8_inj⟩

/-- The check of a buffer of bits. -/
theorem check_bits (ps : List Bytes) (B : Bytes) (m : Nat) (hB : Filled B (wordBits ps)) (hl : ps.length = 3 * m) (hm : m = 4 ∨ m = 6 ∨ m = 8) :
    ∃ c b t, B[4 * m]? = some c ∧ Spec.sha256 (B.take (4 * m)) = b :: t ∧ t.length = 31 ∧
      (wordBits ps = mnemonicBits (B.take (4 * m)) ↔ (bits8 b).take m = (bits8 c).take m) := by
  have h33 := hB.size
  have hlt : 4 * m < B.length := by omega
  obtain ⟨b, t, hs, ht⟩ := sha256_cons (B.take (4 * m))
  refine ⟨_, b, t, List.getElem?_eq_getElem hlt, hs, ht, ?_⟩
  have hel : (B.take (4 * m)).length = 4 * m := by rw [List.length_take]; omega
  have hwl := wordBits_length ps
  have e1 : wordBits ps = (B.take (4 * m)).flatMap bits8 ++ (bits8 B[4 * m]).take m := by
    have hsplit : B = B.take (4 * m) ++ B[4 * m] :: B.drop (4 * m + 1) := by rw [← List.drop_eq_getElem_cons hlt, List.take_append_drop]
    have h := hB.bits
    have hc : (B.flatMap bits8).take (33 * m) = wordBits ps := by rw [h, List.take_left' (by omega)]
    rw [← hc]
    conv_lhs => rw [hsplit]
    rw [List.flatMap_append, List.flatMap_cons, List.take_append, length_bytes8, hel, List.take_of_length_le (by rw [length_bytes8, hel]; omega),
      show 33 * m - 8 * (4 * m) = m by omega, List.take_append_of_le_length (by rw [length_bits8]; omega)]
  have e2 : mnemonicBits (B.take (4 * m)) = (B.take (4 * m)).flatMap bits8 ++ (bits8 b).take m := by
    unfold mnemonicBits
    rw [hs, hel, Nat.mul_div_cancel_left _ (by omega), List.flatMap_cons, List.take_append_of_le_length (by rw [length_bits8]; omega)]
  rw [e1, e2, List.append_cancel_left_eq]
  exact eq_comm

theorem check_spec (ps : List Bytes) (hps : ∀ p ∈ ps, (0x20 : UInt8) ∉ p) (hne : ps ≠ []) (hl : (spaced ps).length + 1 < 2 ^ 32) (junk : Bytes)
    (hj : junk.length = 33) :
    ∃ r, mnemonicCheck (spaced ps) junk = .ok r ∧ (r = true ↔ ∃ e, (e.length = 16 ∨ e.length = 24 ∨ e.length = 32) ∧ ps = mnemonicWords wordlist e) := by
  obtain ⟨g1, g2⟩ := toBits_spec ps hps hne hl junk hj
  unfold mnemonicCheck
  by_cases hg : GoodWords ps
  · obtain ⟨B, h1, h2⟩ := g1 hg
    obtain ⟨m, hm, h3m⟩ : ∃ m, (m = 4 ∨ m = 6 ∨ m = 8) ∧ ps.length = 3 * m := by
      rcases hg.1 with h | h | h
      · exact ⟨4, by omega, h⟩
      · exact ⟨6, by omega, h⟩
      · exact ⟨8, by omega, h⟩
    obtain ⟨c, b, t, k1, k2, k3, k4⟩ := check_bits ps B m h2 h3m hm
    have hlB : load B 0 (4 * m) = .ok (B.take (4 * m)) := by
      unfold load
      rw [if_pos (by rw [h2.size]; omega)]
      rfl
    have hw : ps.length * 11 / 11 = 3 * m := by omega
    have hw4 : 3 * m * 4 / 3 = 4 * m := by omega
    have hsha : sha256 (B.take (4 * m)) = b :: t := by
      rw [sha256_eq _ (by rw [List.length_take]; omega), k2]
    rw [h1, C.bind_ok]
    dsimp only
    rw [if_neg (by simp; omega), hw, hw4, byteAt_eq k1, C.bind_ok, hlB, C.bind_ok, hsha]
    have hb : byteAt (b :: t ++ B.drop 32) 0 = .ok b := rfl
    rw [hb, C.bind_ok]
    have hfin : wordBits ps = mnemonicBits (B.take (4 * m)) ↔ ∃ e, (e.length = 16 ∨ e.length = 24 ∨ e.length = 32) ∧ ps = mnemonicWords wordlist e := by
      have hel : (B.take (4 * m)).length = 4 * m := by rw [List.length_take, h2.size]; omega
      constructor
      · intro h
        exact ⟨B.take (4 * m), by omega, words_of_bits ps _ m hel h3m hg.2 h⟩
      · rintro ⟨e, he, rfl⟩
        have hml := mnemonicWords_length e
        have hem : e.length = 4 * m := by omega
        have hwb := wordBits_mnemonic e m hem (by omega)
        rw [hwb]
        congr 1
        have h5 := h2.bits
        rw [hwb] at h5
        have h6 := congrArg (List.take (8 * (4 * m))) h5
        rw [bytes_take, List.take_append_of_le_length (by rw [mnemonicBits_length e m hem (by omega)]; omega), mnemonicBits,
          List.take_left' (by rw [length_bytes8, hem])] at h6
        exact (bytes8_inj h6).symm
    rw [← hfin, k4]
    rcases hm with rfl | rfl | rfl
    · exact ⟨_, rfl, mask4 b c⟩
    · exact ⟨_, rfl, mask6 b c⟩
    · exact ⟨_, rfl, mask8 b c⟩
  · rw [g2 hg, C.bind_ok]
    refine ⟨false, rfl, by simp, ?_⟩
    rintro ⟨e, he, rfl⟩
    exact absurd ⟨by rw [mnemonicWords_length]; omega, mnemonicWords_mem e⟩ hg

theorem spaced_inj {ps qs : List Bytes} (hp : ∀ p ∈ ps, (0x20 : UInt8) ∉ p) (hq : ∀ p ∈ qs, (0x20 : UInt8) ∉ p) (h1 : ps ≠ []) (h2 : qs ≠ [])
    (h : spaced ps = spaced qs) : ps = qs := by
  induction ps generalizing qs with
  | nil => exact absurd rfl h1
  | cons p ps ih =>
    match qs, h2 with
    | q :: qs, _ =>
      have key : ∀ (r : Bytes) (rs : List Bytes), (0x20 : UInt8) ∉ r → (spaced (r :: rs)).takeWhile (· != 0x20) = r ∧
          (spaced (r :: rs)).dropWhile (· != 0x20) = if rs = [] then [] else 0x20 :: spaced rs := by
        intro r rs hr
        match rs with
        | [] => rw [spaced_one]; exact takeWhile_last r hr
        | s :: rs => rw [spaced_cons, if_neg (by simp)]; exact takeWhile_piece r _ hr
      obtain ⟨a1, a2⟩ := key p ps (hp p (by simp))
      obtain ⟨b1, b2⟩ := key q qs (hq q (by simp))
      rw [h] at a1 a2
      have e1 : p = q := a1.symm.trans b1
      have e2 := a2.symm.trans b2
      by_cases hps : ps = []
      · rw [if_pos hps] at e2
        by_cases hqs : qs = []
        · rw [e1, hps, hqs]
        · rw [if_neg hqs] at e2; cases e2
      · rw [if_neg hps] at e2
        by_cases hqs : qs = []
        · rw [if_pos hqs] at e2; cases e2
        · rw [if_neg hqs] at e2
          rw [e1, ih (fun x hx => hp x (by simp [hx])) (fun x hx => hq x (by simp [hx])) hps hqs (List.cons.inj e2).2]

theorem mnemonicWords_ne {e : Bytes} (h : MnemonicSize e.length) : mnemonicWords wordlist e ≠ [] := by
  intro hh
  have := mnemonicWords_length e
  rw [hh] at this
  unfold MnemonicSize at h
  simp at this
  omega

/-- C42: `checkMnemonic` is defined for every text and accepts exactly the phrases of 12, 18 and 24 words that BIP39 gives for some entropy. -/
theorem C42_check_exact (s junk : Bytes) (hl : s.length + 1 < 2 ^ 32) (hj : junk.length = 33) :
    ∃ r, mnemonicCheck s junk = .ok r ∧ (r = true ↔ ∃ e, (e.length = 16 ∨ e.length = 24 ∨ e.length = 32) ∧ s = mnemonic wordlist e) := by
  obtain ⟨ps, h1, h2, rfl⟩ := pieces_exist s
  obtain ⟨r, h3, h4⟩ := check_spec ps h2 h1 hl junk hj
  refine ⟨r, h3, ?_⟩
  rw [h4]
  constructor
  · rintro ⟨e, he, rfl⟩; exact ⟨e, he, rfl⟩
  · rintro ⟨e, he, hs⟩
    exact ⟨e, he, spaced_inj h2 (mnemonicWords_no_space e) h1 (mnemonicWords_ne (by unfold MnemonicSize; omega)) hs⟩

/-- C42: `mnemonic_to_entropy` is defined for every text: it refuses (leaving the buffer alone) all but 12, 18 or 24 words of the list with
single spaces between them. -/
theorem C42_decode (s ent : Bytes) (hl : s.length + 1 < 2 ^ 32) (he : ent.length = 33) :
    mnemonicToBits s ent = .ok (0, ent) ∨ ∃ ws B, s = spaced ws ∧ GoodWords ws ∧ mnemonicToBits s ent = .ok (ws.length * 11, B) ∧ B.length = 33 := by
  obtain ⟨ps, h1, h2, rfl⟩ := pieces_exist s
  obtain ⟨g1, g2⟩ := toBits_spec ps h2 h1 hl ent he
  by_cases hg : GoodWords ps
  · obtain ⟨B, h3, h4⟩ := g1 hg
    exact .inr ⟨ps, B, rfl, hg, h3, h4.size⟩
  · exact .inl (g2 hg)

/-- C41: for 16, 24 and 32 bytes of entropy the phrase passes the check and decodes to the entropy followed by its checksum bits. -/
theorem C41_roundtrip_partial (e junk ent : Bytes) (he : e.length = 16 ∨ e.length = 24 ∨ e.length = 32) (hj : junk.length = 33) (hent : ent.length = 33) :
    mnemonicCheck (mnemonic wordlist e) junk = .ok true ∧
    ∃ B, mnemonicToBits (mnemonic wordlist e) ent = .ok (e.length / 4 * 33, B) ∧ B.length = 33 ∧ B.take e.length = e ∧
      B.flatMap bits8 = mnemonicBits e ++ List.replicate (264 - e.length / 4 * 33) false := by
  have hs : MnemonicSize e.length := by unfold MnemonicSize; omega
  have hlen := mnemonic_length e (by omega)
  constructor
  · obtain ⟨r, h1, h2⟩ := C42_check_exact (mnemonic wordlist e) junk (by omega) hj
    rw [h1, h2.mpr ⟨e, he, rfl⟩]
  · obtain ⟨g1, -⟩ := toBits_spec (mnemonicWords wordlist e) (mnemonicWords_no_space e) (mnemonicWords_ne hs) (show (mnemonic wordlist e).length + 1 < _ by omega) ent hent
    have hml := mnemonicWords_length e
    obtain ⟨B, h1, h2⟩ := g1 ⟨by rw [hml]; omega, mnemonicWords_mem e⟩
    obtain ⟨m, hm, -, hm8⟩ := MnemonicSize.form hs
    have hbits := h2.bits
    rw [wordBits_length, hml, wordBits_mnemonic e m hm hm8, show 11 * (e.length / 4 * 3) = e.length / 4 * 33 by omega] at hbits
    refine ⟨B, ?_, h2.size, ?_, hbits⟩
    · rw [show mnemonic wordlist e = spaced (mnemonicWords wordlist e) from rfl, h1, hml, show e.length / 4 * 3 * 11 = e.length / 4 * 33 by omega]
    · have h6 := congrArg (List.take (8 * e.length)) hbits
      rw [bytes_take, List.take_append_of_le_length (by rw [mnemonicBits_length e m hm hm8]; omega), mnemonicBits,
        List.take_left' (by rw [length_bytes8])] at h6
      exact bytes8_inj h6

/-- C41 (finding): phrases of 15 and 21 words, for 20 and 28 bytes of entropy, are generated but neither accepted nor decoded. -/
theorem C41_15_21_rejected (mnemo e junk ent output : Bytes) (b : UInt8) (hm : mnemo.length = 240) (he : e.length = 20 ∨ e.length = 28) (hj : junk.length = 33)
    (hent : ent.length = 33) :
    ∃ rest, mnemonicFromData mnemo b e = .ok (some (mnemonic wordlist e ++ 0 :: rest)) ∧ mnemonicCheck (mnemonic wordlist e) junk = .ok false ∧
      mnemonicToBits (mnemonic wordlist e) ent = .ok (0, ent) ∧ mnemonicToEntropy (mnemonic wordlist e) output = .ok (0, output) := by
  have hs : MnemonicSize e.length := by unfold MnemonicSize; omega
  have hlen := mnemonic_length e (by omega)
  have hbad : ∀ ent : Bytes, ent.length = 33 → mnemonicToBits (mnemonic wordlist e) ent = .ok (0, ent) := by
    intro ent hent
    obtain ⟨-, g2⟩ := toBits_spec (mnemonicWords wordlist e) (mnemonicWords_no_space e) (mnemonicWords_ne hs) (show (mnemonic wordlist e).length + 1 < _ by omega) ent hent
    refine g2 fun hg => ?_
    have := hg.1
    rw [mnemonicWords_length] at this
    omega
  refine ⟨_, C41_phrase mnemo b e hm hs, ?_, hbad ent hent, ?_⟩
  · unfold mnemonicCheck
    rw [hbad junk hj, C.bind_ok]
    rfl
  · unfold mnemonicToEntropy
    dsimp only
    split
    · rfl
    · rw [hbad _ (length_zeros 33), C.bind_ok]
      rfl

/-- C41: `mnemonicToEntropy` gives the entropy of a phrase of 12, 18 or 24 words back. -/
theorem C41_entropy_partial (e output : Bytes) (he : e.length = 16 ∨ e.length = 24 ∨ e.length = 32) (ho : e.length ≤ output.length) :
    mnemonicToEntropy (mnemonic wordlist e) output = .ok (e.length, e ++ output.drop e.length) := by
  have hs : MnemonicSize e.length := by unfold MnemonicSize; omega
  obtain ⟨-, B, h1, h2, h3, -⟩ := C41_roundtrip_partial e (zeros 33) (zeros 33) he (length_zeros _) (length_zeros _)
  have hcount := count_spaced (mnemonicWords wordlist e) (mnemonicWords_no_space e) (mnemonicWords_ne hs)
  rw [mnemonicWords_length] at hcount
  unfold mnemonicToEntropy
  dsimp only
  rw [count_acc_nat, Nat.zero_add, show mnemonic wordlist e = spaced (mnemonicWords wordlist e) from rfl, hcount, show e.length / 4 * 3 * 4 / 3 = e.length by omega]
  rw [if_neg (by omega), show spaced (mnemonicWords wordlist e) = mnemonic wordlist e from rfl, h1, C.bind_ok]
  dsimp only
  rw [if_neg (by omega)]
  have hl : load B 0 e.length = .ok e := by
    unfold load
    rw [if_pos (by omega), List.drop_zero, h3]
  have hst := store_put_mid [] output e ho
  rw [List.nil_append, List.length_nil, List.nil_append] at hst
  rw [hl, C.bind_ok, hst]
  rfl

/-- C42: the text returned by `mnemonicToEntropy` for every text: nothing, or the first bytes encoded by words of the list, whose checksum is
not looked at. -/
theorem C42_entropy (s output : Bytes) (hl : s.length + 1 < 2 ^ 32) :
    mnemonicToEntropy s output = .ok (0, output) ∨ ∃ ws e, s = spaced ws ∧ GoodWords ws ∧ (wordBits ws).take (8 * e.length) = e.flatMap bits8 ∧
      e.length = ws.length / 3 * 4 ∧ mnemonicToEntropy s output = .ok (e.length, e ++ output.drop e.length) := by
  obtain ⟨ps, h1, h2, rfl⟩ := pieces_exist s
  obtain ⟨g1, g2⟩ := toBits_spec ps h2 h1 hl (zeros 33) (length_zeros _)
  have hcount := count_spaced ps h2 h1
  unfold mnemonicToEntropy
  dsimp only
  rw [count_acc_nat, Nat.zero_add, hcount]
  split
  · exact .inl rfl
  · rename_i ho
    by_cases hg : GoodWords ps
    · obtain ⟨B, h3, h4⟩ := g1 hg
      have h5 := hg.1
      have h33 := h4.size
      have hel : (B.take (ps.length * 4 / 3)).length = ps.length * 4 / 3 := by rw [List.length_take]; omega
      refine .inr ⟨ps, B.take (ps.length * 4 / 3), rfl, hg, ?_, by omega, ?_⟩
      · rw [← bytes_take, hel, h4.bits, List.take_append_of_le_length (by rw [wordBits_length]; omega)]
      · rw [h3, C.bind_ok]
        dsimp only
        rw [if_neg (by omega)]
        have hl : load B 0 (ps.length * 4 / 3) = .ok (B.take (ps.length * 4 / 3)) := by
          unfold load
          rw [if_pos (by omega), List.drop_zero]
        have hst := store_put_mid [] output (B.take (ps.length * 4 / 3)) (by omega)
        rw [List.nil_append, List.length_nil, List.nil_append] at hst
        rw [hl, C.bind_ok, hst, hel]
        rfl
    · rw [g2 hg, C.bind_ok]
      exact .inl rfl

/-- C41: `generateMnemonic` from data gives the phrase of the first bytes of the SHA-256 of the data. -/
theorem C41_generate (mnemo data : Bytes) (b n : UInt8) (hm : mnemo.length = 240) (hd : data.length < 2 ^ 61) (hn : n = 12 ∨ n = 15 ∨ n = 18 ∨ n = 21 ∨ n = 24) :
    ∃ e rest, e = (Spec.sha256 data).take (n.toNat / 3 * 4) ∧ MnemonicSize e.length ∧ generateMnemonic mnemo b n data = .ok (some (mnemonic wordlist e ++ 0 :: rest)) := by
  have hl : (Spec.sha256 data).length = 32 := length_sha256 data
  have hk : (n.toNat = 12 ∨ n.toNat = 15 ∨ n.toNat = 18 ∨ n.toNat = 21 ∨ n.toNat = 24) ∧ (decide (n < 12) || decide (n > 24) || n.toNat % 3 != 0) = false := by
    rcases hn with rfl | rfl | rfl | rfl | rfl <;> decide
  obtain ⟨hk, hc⟩ := hk
  have hel : ((Spec.sha256 data).take (n.toNat / 3 * 4)).length = n.toNat / 3 * 4 := by rw [List.length_take]; omega
  have hs : MnemonicSize ((Spec.sha256 data).take (n.toNat / 3 * 4)).length := by rw [hel]; unfold MnemonicSize; omega
  refine ⟨_, mnemo.drop ((mnemonic wordlist ((Spec.sha256 data).take (n.toNat / 3 * 4))).length + 1), rfl, hs, ?_⟩
  · unfold generateMnemonic
    rw [if_neg (by rw [hc]; decide), sha256_eq data hd]
    have : load (Spec.sha256 data) 0 (n.toNat * 4 / 3) = .ok ((Spec.sha256 data).take (n.toNat / 3 * 4)) := by
      unfold load
      rw [if_pos (by omega), List.drop_zero, show n.toNat * 4 / 3 = n.toNat / 3 * 4 by omega]
    rw [this, C.bind_ok, C41_phrase mnemo b _ hm hs]

/-- C41: the random phrase is that of the random bytes. -/
theorem C41_random (mnemo rnd : Bytes) (b n : UInt8) (hm : mnemo.length = 240) (hr : rnd.length = 32) (hn : n = 12 ∨ n = 15 ∨ n = 18 ∨ n = 21 ∨ n = 24) :
    ∃ e rest, e = rnd.take (n.toNat / 3 * 4) ∧ MnemonicSize e.length ∧ randomMnemonic mnemo b n rnd = .ok (some (mnemonic wordlist e ++ 0 :: rest)) := by
  have hk : (n.toNat = 12 ∨ n.toNat = 15 ∨ n.toNat = 18 ∨ n.toNat = 21 ∨ n.toNat = 24) ∧ (decide (n < 12) || decide (n > 24) || n.toNat % 3 != 0) = false := by
    rcases hn with rfl | rfl | rfl | rfl | rfl <;> decide
  obtain ⟨hk, hc⟩ := hk
  have hel : (rnd.take (n.toNat / 3 * 4)).length = n.toNat / 3 * 4 := by rw [List.length_take]; omega
  have hs : MnemonicSize (rnd.take (n.toNat / 3 * 4)).length := by rw [hel]; unfold MnemonicSize; omega
  refine ⟨_, mnemo.drop ((mnemonic wordlist (rnd.take (n.toNat / 3 * 4))).length + 1), rfl, hs, ?_⟩
  · unfold randomMnemonic
    rw [if_neg (by rw [hc]; decide)]
    dsimp only
    rw [if_neg (by simp; omega)]
    have : load rnd 0 (n.toNat * 32 / 3 / 8) = .ok (rnd.take (n.toNat / 3 * 4)) := by
      unfold load
      rw [if_pos (by omega), List.drop_zero, show n.toNat * 32 / 3 / 8 = n.toNat / 3 * 4 by omega]
    rw [this, C.bind_ok, C41_phrase mnemo b _ hm hs]

/-- C41: other numbers of words are refused. -/
theorem C41_other_counts (mnemo data rnd : Bytes) (b n : UInt8) (hn : ¬ (n = 12 ∨ n = 15 ∨ n = 18 ∨ n = 21 ∨ n = 24)) :
    generateMnemonic mnemo b n data = .ok none ∧ randomMnemonic mnemo b n rnd = .ok none := by
  have hc : (decide (n < 12) || decide (n > 24) || n.toNat % 3 != 0) = true := by
    have : ∀ n : UInt8, ¬ (n = 12 ∨ n = 15 ∨ n = 18 ∨ n = 21 ∨ n = 24) → (decide (n < 12) || decide (n > 24) || n.toNat % 3 != 0) = true := by
      apply forall_byte; decide +kernel
    exact this n hn
  constructor
  · unfold generateMnemonic; rw [if_pos hc]; rfl
  · unfold randomMnemonic; rw [if_pos hc]; rfl

/-! ### Examples -/

/-- "abandon" -/
def abandon : Bytes := [0x61, 0x62, 0x61, 0x6e, 0x64, 0x6f, 0x6e]

/-- "about" -/
def about : Bytes := [0x61, 0x62, 0x6f, 0x75, 0x74]

attribute [local semireducible] wordlist Spec.sha256 sha256

/-- The first test vector of BIP39. -/
theorem vector_zeros : mnemonic wordlist (zeros 16) = spaced (List.replicate 11 abandon ++ [about]) := by decide +kernel

theorem abandon_good : GoodWords (List.replicate 12 abandon) := by
  refine ⟨.inl (by simp), ?_⟩
  intro p hp
  rw [List.eq_of_mem_replicate hp]
  decide +kernel

theorem abandon_bits : wordBits (List.replicate 12 abandon) = List.replicate 132 false := by decide +kernel

theorem abandon_zeros : mnemonicBits (zeros 16) ≠ List.replicate 132 false := by decide +kernel

attribute [local irreducible] wordlist Spec.sha256 sha256

/-- C42 (finding): `mnemonicToEntropy` does not look at the checksum: twelve times "abandon" is no BIP39 phrase and fails the check, but
decodes to sixteen zeros. -/
theorem C42_checksum_ignored (output : Bytes) (ho : 16 ≤ output.length) :
    mnemonicCheck (spaced (List.replicate 12 abandon)) (zeros 33) = .ok false ∧
    mnemonicToEntropy (spaced (List.replicate 12 abandon)) output = .ok (16, zeros 16 ++ output.drop 16) := by
  have hno : ∀ p ∈ List.replicate 12 abandon, (0x20 : UInt8) ∉ p := by
    intro p hp
    rw [List.eq_of_mem_replicate hp]
    decide
  have hlen : (spaced (List.replicate 12 abandon)).length + 1 < 2 ^ 32 := by decide +kernel
  have hzero : ∀ e : Bytes, e.length = 16 → (wordBits (List.replicate 12 abandon)).take (8 * e.length) = e.flatMap bits8 → e = zeros 16 := by
    intro e he h
    rw [abandon_bits, he, List.take_replicate] at h
    exact (bytes8_inj (h.symm.trans (by decide +kernel : _ = (zeros 16).flatMap bits8)))
  constructor
  · obtain ⟨r, h1, h2⟩ := check_spec (List.replicate 12 abandon) hno (by simp) hlen (zeros 33) (length_zeros _)
    rw [h1]
    congr 1
    rw [Bool.eq_false_iff]
    intro hr
    obtain ⟨e, he, hp⟩ := h2.mp hr
    have hl := mnemonicWords_length e
    rw [← hp, List.length_replicate] at hl
    have he : e.length = 4 * 4 := by omega
    have hb := wordBits_mnemonic e 4 he (by omega)
    rw [← hp] at hb
    have : e = zeros 16 := hzero e he (by rw [hb, mnemonicBits, List.take_left' (length_bytes8 e)])
    rw [this, abandon_bits] at hb
    exact abandon_zeros hb.symm
  · rcases C42_entropy (spaced (List.replicate 12 abandon)) output hlen with h | ⟨ws, e, h1, h2, h3, h4, h5⟩
    · exfalso
      obtain ⟨B, h1, h2⟩ := (toBits_spec (List.replicate 12 abandon) hno (by simp) hlen (zeros 33) (length_zeros _)).1 abandon_good
      have hcount := count_spaced (List.replicate 12 abandon) hno (by simp)
      unfold mnemonicToEntropy at h
      dsimp only at h
      rw [count_acc_nat, Nat.zero_add, hcount, if_neg (by simp; omega), h1, C.bind_ok] at h
      dsimp only at h
      have hl : load B 0 (12 * 4 / 3) = .ok (B.take 16) := by
        unfold load
        rw [if_pos (by rw [h2.size]; omega), List.drop_zero]
      have hst := store_put_mid [] output (B.take 16) (by rw [List.length_take, h2.size]; omega)
      rw [List.nil_append, List.length_nil, List.nil_append] at hst
      rw [List.length_replicate, if_neg (by omega), hl, C.bind_ok, hst, C.bind_ok] at h
      simp at h
    · have : List.replicate 12 abandon = ws := by
        refine spaced_inj hno ?_ (by simp) ?_ h1
        · intro p hp hh
          exact ((wordlist_word (h2.2 p hp)).2.2 _ hh).1 rfl
        · rintro rfl
          have := h2.1
          simp at this
      subst this
      have he : e.length = 16 := by rw [h4]; simp
      rw [h5, hzero e he h3]
      rfl

/-- The hypotheses of the theorems above hold for real buffers: the phrase of sixteen zeros is accepted and decoded. -/
example : mnemonicCheck (spaced (List.replicate 11 abandon ++ [about])) (zeros 33) = .ok true := by
  have h := (C41_roundtrip_partial (zeros 16) (zeros 33) (zeros 33) (by simp [length_zeros]) (length_zeros _) (length_zeros _)).1
  rwa [vector_zeros] at h

end UB
