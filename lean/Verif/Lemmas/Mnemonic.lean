import Verif.Model.Mnemonic
import Verif.Spec.Mnemonic
import Verif.Lemmas.Wordlist
import Verif.Lemmas.Bin
import Verif.Lemmas.ConvertBits
import Mathlib.Data.List.Nodup
import Mathlib.Data.Nat.Bitwise
import Mathlib.Data.List.TakeWhile
import Mathlib.Tactic.IntervalCases

/-
The bit buffers, the words and the text of mnemonic phrases.
-/

namespace UB
open Spec

attribute [local irreducible] wordlist Spec.sha256 sha256

instance : LawfulMonad C := LawfulMonad.mk' C (id_map := fun x => by cases x <;> rfl) (pure_bind := fun _ _ => rfl)
  (bind_assoc := fun x _ _ => by cases x <;> rfl)

theorem foldlM_snoc {α β : Type} (f : β → α → C β) (b : β) (l : List α) (a : α) : (l ++ [a]).foldlM f b = l.foldlM f b >>= fun x => f x a := by
  rw [List.foldlM_append]
  congr 1
  funext x
  rw [List.foldlM_cons]
  cases f x a <;> rfl

/-! ### Bits of bytes -/

theorem bits8_getElem? (b : UInt8) (n : Nat) (h : n < 8) : (bits8 b)[n]? = some (b.toNat.testBit (7 - n)) := by
  interval_cases n <;> rfl

theorem bytes_getElem? (B : Bytes) (n : Nat) : (B.flatMap bits8)[n]? = B[n / 8]?.map fun b => b.toNat.testBit (7 - n % 8) := by
  induction B generalizing n with
  | nil => simp
  | cons b B ih =>
    rw [List.flatMap_cons]
    by_cases h : n < 8
    · rw [List.getElem?_append_left (by rw [length_bits8]; exact h), bits8_getElem? b n h, Nat.div_eq_of_lt h, Nat.mod_eq_of_lt h]
      rfl
    · rw [List.getElem?_append_right (by rw [length_bits8]; omega), length_bits8, ih, show n / 8 = (n - 8) / 8 + 1 by omega, show (n - 8) % 8 = n % 8 by omega]
      rfl

theorem length_bytes8 (B : Bytes) : (B.flatMap bits8).length = 8 * B.length := (bitsValue_bytes B).2

theorem bits8_inj {a b : UInt8} (h : bits8 a = bits8 b) : a = b := by
  have := congrArg bitsValue h
  rw [bitsValue_bits8, bitsValue_bits8] at this
  exact UInt8.toNat_inj.mp this

theorem bytes8_inj : ∀ {A B : Bytes}, A.flatMap bits8 = B.flatMap bits8 → A = B
  | [], [], _ => rfl
  | [], b :: B, h => by simp [bits8] at h
  | a :: A, [], h => by simp [bits8] at h
  | a :: A, b :: B, h => by
    rw [List.flatMap_cons, List.flatMap_cons] at h
    have := List.append_inj h rfl
    rw [bits8_inj this.1, bytes8_inj this.2]

theorem byte_mask_bit (b : UInt8) (m : Nat) (h : m < 8) : (b &&& (1 <<< UInt8.ofNat m) != 0) = b.toNat.testBit m := by
  have : ∀ b : UInt8, ∀ m < 8, (b &&& (1 <<< UInt8.ofNat m) != 0) = b.toNat.testBit m := by apply forall_byte; decide +kernel
  exact this b m h

theorem byte_or_bit (b : UInt8) (m j : Nat) (h : m < 8) (hj : j < 8) :
    (b ||| (1 <<< UInt8.ofNat m)).toNat.testBit j = (b.toNat.testBit j || decide (j = m)) := by
  have : ∀ b : UInt8, ∀ m < 8, ∀ j < 8, (b ||| (1 <<< UInt8.ofNat m)).toNat.testBit j = (b.toNat.testBit j || decide (j = m)) := by
    apply forall_byte; decide +kernel
  exact this b m h j hj

theorem byteAt_eq {B : Bytes} {i : Nat} {b : UInt8} (h : B[i]? = some b) : byteAt B i = .ok b := by
  unfold byteAt; rw [h]

theorem bitAt_eq (B : Bytes) (n : Nat) (x : Bool) (h : (B.flatMap bits8)[n]? = some x) : bitAt B n = .ok x.toNat := by
  rw [bytes_getElem?, Option.map_eq_some_iff] at h
  obtain ⟨b, h1, rfl⟩ := h
  unfold bitAt
  rw [byteAt_eq h1, C.bind_ok, byte_mask_bit b _ (by omega), C.pure_eq]
  cases b.toNat.testBit (7 - n % 8) <;> rfl

theorem wordIndex_eq (B : Bytes) (i : Nat) (h : i * 11 + 11 ≤ 8 * B.length) :
    wordIndex B i = .ok (bitsValue (((B.flatMap bits8).drop (i * 11)).take 11)) := by
  have key : ∀ m ≤ 11, (List.range m).foldlM (fun idx j => do return idx * 2 + (← bitAt B (i * 11 + j))) 0 =
      C.ok (bitsValue (((B.flatMap bits8).drop (i * 11)).take m)) := by
    intro m hm
    induction m with
    | zero => rfl
    | succ m ih =>
      have hlt : i * 11 + m < (B.flatMap bits8).length := by rw [length_bytes8]; omega
      have hx := List.getElem?_eq_getElem hlt
      rw [List.range_succ, foldlM_snoc, ih (by omega), C.bind_ok, bitAt_eq B _ _ hx, C.bind_ok,
        List.take_succ, List.getElem?_drop, hx, bitsValue_append]
      simp [bitsValue]
  exact key 11 (Nat.le_refl _)

/-! ### Words and texts -/

theorem groups11_eq (n : Nat) (l : List Bool) : groups11 n l = (List.range n).map fun i => bitsValue ((l.drop (i * 11)).take 11) := by
  induction n generalizing l with
  | zero => rfl
  | succ n ih =>
    rw [groups11, ih, List.range_succ_eq_map, List.map_cons, List.map_map, Nat.zero_mul, List.drop_zero]
    congr 1
    apply List.map_congr_left
    intro i _
    simp only [Function.comp, List.drop_drop]
    rw [show 11 + i * 11 = (i + 1) * 11 by omega]

theorem spaced_cons (w v : Bytes) (ws : List Bytes) : spaced (w :: v :: ws) = w ++ 0x20 :: spaced (v :: ws) := by
  simp [spaced, List.intercalate, List.intersperse]

theorem spaced_one (w : Bytes) : spaced [w] = w := by simp [spaced, List.intercalate]

theorem spaced_concat (ws : List Bytes) (w : Bytes) : spaced (ws ++ [w]) = ws.flatMap (· ++ [0x20]) ++ w := by
  induction ws with
  | nil => rw [List.nil_append, spaced_one]; rfl
  | cons v ws ih =>
    match ws with
    | [] => rw [List.cons_append, List.nil_append, spaced_cons, spaced_one]; simp
    | u :: us =>
      rw [List.cons_append] at ih
      rw [List.cons_append, List.cons_append, spaced_cons, ih]
      simp

theorem wordlist_some {k : Nat} (h : k < 2048) : ∃ w, wordlist[k]? = some w ∧ w ∈ wordlist := by
  have hl : k < wordlist.length := by rw [wordlist_length]; exact h
  exact ⟨_, List.getElem?_eq_getElem hl, List.getElem_mem hl⟩

theorem store_put_mid (T R d : Bytes) (h : d.length ≤ R.length) : store (T ++ R) T.length d = .ok (T ++ d ++ R.drop d.length) := by
  unfold store
  rw [if_pos (by simp; omega), List.take_left, List.drop_append, List.drop_eq_nil_of_le (by omega), Nat.add_sub_cancel_left, List.nil_append]

/-- The word number `i` of a bit buffer. -/
def wordOf (B : Bytes) (i : Nat) : Bytes := wordlist.getD (bitsValue (((B.flatMap bits8).drop (i * 11)).take 11)) []

theorem wordOf_spec (B : Bytes) (i : Nat) :
    wordlist[bitsValue (((B.flatMap bits8).drop (i * 11)).take 11)]? = some (wordOf B i) ∧ wordOf B i ∈ wordlist := by
  have hlt : bitsValue (((B.flatMap bits8).drop (i * 11)).take 11) < 2048 :=
    lt_of_lt_of_le (bitsValue_lt _) (show 2 ^ _ ≤ 2 ^ 11 from Nat.pow_le_pow_right (by omega) (by rw [List.length_take]; omega))
  obtain ⟨w, h1, h2⟩ := wordlist_some hlt
  have : wordOf B i = w := by unfold wordOf; rw [List.getD_eq_getElem?_getD, h1]; rfl
  rw [this]
  exact ⟨h1, h2⟩

/-- The text after `i` words. -/
def textTo (B : Bytes) (mlen i : Nat) : Bytes := (List.range i).flatMap fun j => wordOf B j ++ [if j < mlen - 1 then 0x20 else 0]

theorem textTo_succ (B : Bytes) (mlen i : Nat) : textTo B mlen (i + 1) = textTo B mlen i ++ (wordOf B i ++ [if i < mlen - 1 then 0x20 else 0]) := by
  unfold textTo
  rw [List.range_succ, List.flatMap_append, List.flatMap_singleton]

theorem textTo_length (B : Bytes) (mlen i : Nat) : (textTo B mlen i).length ≤ 9 * i := by
  induction i with
  | zero => exact Nat.le_refl _
  | succ i ih =>
    rw [textTo_succ, List.length_append, List.length_append]
    have := (wordlist_word (wordOf_spec B i).2).2.1
    simp
    omega

theorem putWords (B mnemo : Bytes) (mlen : Nat) (hB : mlen * 11 ≤ 8 * B.length) (hm : mnemo.length = 240) (i : Nat) (hi : i ≤ mlen) (h24 : mlen ≤ 24) :
    (List.range i).foldlM (putWord B mlen) (mnemo, 0) = .ok (textTo B mlen i ++ mnemo.drop (textTo B mlen i).length, (textTo B mlen i).length) := by
  induction i with
  | zero => simp [textTo]
  | succ i ih =>
    rw [List.range_succ, foldlM_snoc, ih (by omega), C.bind_ok]
    obtain ⟨h1, h2⟩ := wordOf_spec B i
    obtain ⟨-, h8, -⟩ := wordlist_word h2
    have hl := textTo_length B mlen i
    unfold putWord
    rw [wordIndex_eq B i (by omega), C.bind_ok, h1]
    dsimp only
    rw [store_put_mid _ _ _ (by simp; omega), C.bind_ok]
    have e : textTo B mlen i ++ (wordOf B i ++ [0]) ++ (mnemo.drop (textTo B mlen i).length).drop (wordOf B i ++ [0]).length =
        (textTo B mlen i ++ wordOf B i) ++ (0 :: mnemo.drop (textTo B mlen (i + 1)).length) := by
      rw [textTo_succ]
      simp [Nat.add_comm, Nat.add_left_comm]
    rw [e]
    have := store_put_mid (textTo B mlen i ++ wordOf B i) (0 :: mnemo.drop (textTo B mlen (i + 1)).length) [if i < mlen - 1 then 0x20 else 0] (by simp)
    rw [List.length_append] at this
    rw [this]
    have e2 : textTo B mlen (i + 1) = textTo B mlen i ++ wordOf B i ++ [if i < mlen - 1 then 0x20 else 0] := by rw [textTo_succ, List.append_assoc]
    rw [show List.drop [if i < mlen - 1 then (0x20 : UInt8) else 0].length (0 :: List.drop (textTo B mlen (i + 1)).length mnemo) =
      List.drop (textTo B mlen (i + 1)).length mnemo from rfl, ← e2]
    have e3 : (textTo B mlen i).length + (wordOf B i).length + 1 = (textTo B mlen (i + 1)).length := by rw [e2]; simp; omega
    rw [← e3]
    rfl

theorem textTo_all (B : Bytes) (m : Nat) : textTo B (m + 1) (m + 1) = spaced ((List.range (m + 1)).map (wordOf B)) ++ [0] := by
  rw [textTo_succ, List.range_succ, List.map_append, List.map_cons, List.map_nil, spaced_concat, ← List.append_assoc]
  congr 2
  · unfold textTo
    rw [List.flatMap_map]
    have : ∀ l : List Nat, (∀ j ∈ l, j < m) → (l.flatMap fun j => wordOf B j ++ [if j < m + 1 - 1 then 0x20 else 0]) = l.flatMap fun j => wordOf B j ++ [0x20] := by
      intro l hl
      induction l with
      | nil => rfl
      | cons j l ih =>
        rw [List.flatMap_cons, List.flatMap_cons, ih fun k hk => hl k (by simp [hk]), if_pos (by have := hl j (by simp); omega)]
    exact this _ fun j hj => List.mem_range.mp hj
  · simp

/-! ### Filling the bit buffer -/

/-- The 33 bytes hold the bits `L` followed by zeros. -/
structure Filled (B : Bytes) (L : List Bool) : Prop where
  size : B.length = 33
  fits : L.length ≤ 264
  bits : B.flatMap bits8 = L ++ List.replicate (264 - L.length) false

theorem Filled.start : Filled (zeros 33) [] := ⟨rfl, by simp, by decide +kernel⟩

theorem setBit_bits (B : Bytes) (n : Nat) (b : UInt8) (h : B[n / 8]? = some b) :
    (B.set (n / 8) (b ||| (1 <<< UInt8.ofNat (7 - n % 8)))).flatMap bits8 = (B.flatMap bits8).set n true := by
  apply List.ext_getElem?
  intro j
  have hlt : n / 8 < B.length := by
    by_contra hh
    rw [List.getElem?_eq_none (by omega)] at h
    cases h
  rw [bytes_getElem?, List.getElem?_set, List.getElem?_set, bytes_getElem?, length_bytes8]
  by_cases hj : n / 8 = j / 8
  · rw [if_pos hj, if_pos (by omega), Option.map_some, ← hj, h, Option.map_some, byte_or_bit _ _ _ (by omega) (by omega)]
    by_cases hn : n = j
    · subst hn
      rw [if_pos rfl, if_pos (by omega)]
      simp
    · rw [if_neg hn, show decide (7 - j % 8 = 7 - n % 8) = false by rw [decide_eq_false_iff_not]; omega, Bool.or_false]
  · rw [if_neg hj, if_neg (by intro e; exact hj (by rw [e]))]

theorem store_set (B : Bytes) (i : Nat) (b : UInt8) (h : i < B.length) : store B i [b] = .ok (B.set i b) := by
  unfold store
  rw [if_pos (by simp; omega), List.set_eq_take_append_cons_drop, if_pos h]
  simp

theorem fill_bit {B : Bytes} {L : List Bool} (h : Filled B L) (hL : L.length < 264) (x : Bool) :
    ∃ B', (if x = true then (do
      let b ← byteAt B (L.length / 8)
      let bits ← store B (L.length / 8) [b ||| (1 <<< UInt8.ofNat (7 - L.length % 8))]
      return (bits, L.length + 1)) else (return (B, L.length + 1) : C (Bytes × Nat))) = C.ok (B', L.length + 1) ∧ Filled B' (L ++ [x]) := by
  have hrep : List.replicate (264 - L.length) false = false :: List.replicate (264 - (L.length + 1)) false := by
    rw [show 264 - L.length = (264 - (L.length + 1)) + 1 by omega, List.replicate_succ]
  have hf := h.bits
  rw [hrep] at hf
  cases x with
  | false =>
    rw [if_neg (by decide)]
    refine ⟨B, rfl, h.size, by simp; omega, ?_⟩
    rw [hf]
    simp
  | true =>
    rw [if_pos rfl]
    have hlt : L.length / 8 < B.length := by rw [h.size]; omega
    have hb := List.getElem?_eq_getElem hlt
    rw [byteAt_eq hb, C.bind_ok, store_set _ _ _ hlt, C.bind_ok]
    refine ⟨_, rfl, by rw [List.length_set, h.size], by simp; omega, ?_⟩
    rw [setBit_bits B _ _ hb, hf, List.set_append_right _ _ (Nat.le_refl _), Nat.sub_self, List.set_cons_zero, List.length_append, List.append_assoc]
    rfl

theorem putIndex_eq {B : Bytes} {L : List Bool} (h : Filled B L) (hL : L.length + 11 ≤ 264) (k : Nat) :
    ∃ B', putIndex k B L.length = .ok (B', L.length + 11) ∧ Filled B' (L ++ bitsOf 11 k) := by
  have key : ∀ m ≤ 11, ∃ B', (List.range m).foldlM (fun (st : Bytes × Nat) ki =>
      if k &&& (1 <<< (10 - ki)) ≠ 0 then do
        let b ← byteAt st.1 (st.2 / 8)
        let bits ← store st.1 (st.2 / 8) [b ||| (1 <<< UInt8.ofNat (7 - st.2 % 8))]
        return (bits, st.2 + 1)
      else return (st.1, st.2 + 1)) (B, L.length) = C.ok (B', L.length + m) ∧ Filled B' (L ++ (bitsOf 11 k).take m) := by
    intro m hm
    induction m with
    | zero => exact ⟨B, rfl, by simpa using h⟩
    | succ m ih =>
      obtain ⟨B1, h1, h2⟩ := ih (by omega)
      have hlen : (L ++ (bitsOf 11 k).take m).length = L.length + m := by
        rw [List.length_append, List.length_take, length_bitsOf]; omega
      obtain ⟨B2, h3, h4⟩ := fill_bit h2 (by omega) (k.testBit (10 - m))
      rw [hlen] at h3
      refine ⟨B2, ?_, ?_⟩
      · rw [List.range_succ, foldlM_snoc, h1, C.bind_ok]
        have hc : (k &&& 1 <<< (10 - m) ≠ 0) ↔ (k.testBit (10 - m) = true) := by
          rw [Nat.one_shiftLeft, Nat.and_two_pow]
          cases k.testBit (10 - m) <;> simp
        dsimp only
        simp only [hc]
        rw [h3]
        rfl
      · have hb : (bitsOf 11 k)[m]? = some (k.testBit (10 - m)) := by
          unfold bitsOf
          rw [List.getElem?_map, List.getElem?_reverse (by simp; omega), List.length_range, List.getElem?_range (by omega)]
          rw [show 11 - 1 - m = 10 - m by omega]
          rfl
        rw [List.take_succ, hb, Option.toList_some, ← List.append_assoc]
        exact h4
  obtain ⟨B', h1, h2⟩ := key 11 (Nat.le_refl _)
  refine ⟨B', h1, ?_⟩
  rwa [List.take_of_length_le (by rw [length_bitsOf])] at h2

/-! ### Reading words -/

theorem findWord_mem {w : Bytes} {ws : List Bytes} (h : w ∈ ws) : findWord w ws = some (ws.idxOf w) := by
  induction ws with
  | nil => cases h
  | cons v ws ih =>
    unfold findWord
    by_cases hv : w = v
    · rw [if_pos hv, hv, List.idxOf_cons_self]
    · rw [if_neg hv, ih ((List.mem_cons.mp h).resolve_left hv), List.idxOf_cons_ne _ (Ne.symm hv)]
      rfl

theorem findWord_not {w : Bytes} {ws : List Bytes} (h : w ∉ ws) : findWord w ws = none := by
  induction ws with
  | nil => rfl
  | cons v ws ih =>
    unfold findWord
    rw [if_neg (fun e => h (by simp [e])), ih (fun e => h (by simp [e]))]
    rfl

/-- Every text consists of pieces without spaces. -/
theorem pieces_exist (s : Bytes) : ∃ ps : List Bytes, ps ≠ [] ∧ (∀ p ∈ ps, (0x20 : UInt8) ∉ p) ∧ s = spaced ps := by
  induction s with
  | nil => exact ⟨[[]], by simp, by simp, by rw [spaced_one]⟩
  | cons c s ih =>
    obtain ⟨ps, h1, h2, h3⟩ := ih
    match ps, h1 with
    | p :: ps, _ =>
      by_cases hc : c = 0x20
      · refine ⟨[] :: p :: ps, by simp, ?_, by rw [spaced_cons, h3, hc]; rfl⟩
        intro q hq
        rcases List.mem_cons.mp hq with rfl | hq
        · simp
        · exact h2 q hq
      · refine ⟨(c :: p) :: ps, by simp, ?_, ?_⟩
        · intro q hq
          rcases List.mem_cons.mp hq with rfl | hq
          · have := h2 p (by simp)
            simp [this, Ne.symm hc]
          · exact h2 q (by simp [hq])
        · rw [h3]
          match ps with
          | [] => rw [spaced_one, spaced_one]
          | q :: ps => rw [spaced_cons, spaced_cons]; rfl

theorem takeWhile_piece (p t : Bytes) (h : (0x20 : UInt8) ∉ p) : (p ++ 0x20 :: t).takeWhile (· != 0x20) = p ∧ (p ++ 0x20 :: t).dropWhile (· != 0x20) = 0x20 :: t := by
  have : ∀ c ∈ p, (c != 0x20) = true := by
    intro c hc
    rw [bne_iff_ne]
    rintro rfl
    exact h hc
  constructor
  · rw [List.takeWhile_append_of_pos this]; simp
  · rw [List.dropWhile_append_of_pos this]; simp

theorem takeWhile_last (p : Bytes) (h : (0x20 : UInt8) ∉ p) : p.takeWhile (· != 0x20) = p ∧ p.dropWhile (· != 0x20) = [] := by
  have : ∀ c ∈ p, (c != 0x20) = true := by
    intro c hc
    rw [bne_iff_ne]
    rintro rfl
    exact h hc
  constructor
  · rw [List.takeWhile_eq_self_iff]; exact this
  · rw [List.dropWhile_eq_nil_iff]; exact this

/-- The bits of some words. -/
def wordBits (ws : List Bytes) : List Bool := ws.flatMap fun w => bitsOf 11 (wordlist.idxOf w)

theorem wordBits_length (ws : List Bytes) : (wordBits ws).length = 11 * ws.length := by
  induction ws with
  | nil => rfl
  | cons w ws ih =>
    unfold wordBits at ih ⊢
    rw [List.flatMap_cons, List.length_append, ih, length_bitsOf, List.length_cons]; omega

theorem loop_step (f : Nat) (s : Bytes) (hs : s ≠ []) (B : Bytes) (bi : Nat) :
    entropyLoop (f + 1) s B bi = if (s.takeWhile (· != 0x20)).length > 9 then .ok none else
      match findWord (s.takeWhile (· != 0x20)) wordlist with
      | none => .ok none
      | some k => (putIndex k B bi).bind fun r => entropyLoop f ((s.dropWhile (· != 0x20)).drop 1) r.1 r.2 := by
  match s, hs with
  | c :: s, _ => rfl

theorem loop_nil (f : Nat) (B : Bytes) (bi : Nat) : entropyLoop f [] B bi = .ok (some (B, bi)) := by cases f <;> rfl

/-- One word and what follows it. -/
theorem loop_word {B : Bytes} {L : List Bool} (h : Filled B L) (hL : L.length + 11 ≤ 264) (f : Nat) (s p rest : Bytes) (hs : s ≠ [])
    (h1 : s.takeWhile (· != 0x20) = p) (h2 : (s.dropWhile (· != 0x20)).drop 1 = rest) :
    (p ∉ wordlist → entropyLoop (f + 1) s B L.length = .ok none) ∧
    (p ∈ wordlist → ∃ B', Filled B' (L ++ wordBits [p]) ∧ entropyLoop (f + 1) s B L.length = entropyLoop f rest B' (L.length + 11)) := by
  rw [loop_step f s hs, h1, h2]
  constructor
  · intro hp
    rw [findWord_not hp]
    split <;> rfl
  · intro hp
    obtain ⟨B', g1, g2⟩ := putIndex_eq h hL (wordlist.idxOf p)
    have := (wordlist_word hp).2.1
    refine ⟨B', by simpa [wordBits] using g2, ?_⟩
    rw [if_neg (by omega), findWord_mem hp]
    dsimp only
    rw [g1]
    rfl

theorem loop_spec (ps : List Bytes) (hps : ∀ p ∈ ps, (0x20 : UInt8) ∉ p) : ∀ (f : Nat) (B : Bytes) (L : List Bool), Filled B L →
    L.length + 11 * ps.length ≤ 264 → ps ≠ [] → spaced ps ≠ [] → (spaced ps).length ≤ f →
    ((∀ p ∈ ps, p ∈ wordlist) → ∃ B', entropyLoop f (spaced ps) B L.length = .ok (some (B', L.length + 11 * ps.length)) ∧ Filled B' (L ++ wordBits ps)) ∧
    ((∃ p ∈ ps, p ∉ wordlist) → entropyLoop f (spaced ps) B L.length = .ok none ∨
      ∃ B' bi, entropyLoop f (spaced ps) B L.length = .ok (some (B', bi)) ∧ bi < L.length + 11 * ps.length) := by
  induction ps with
  | nil => intro f B L _ _ h; exact absurd rfl h
  | cons p ps ih =>
    intro f B L hB hL _ hne hf
    have hpos : 0 < (spaced (p :: ps)).length := List.length_pos_iff.mpr hne
    obtain ⟨f, rfl⟩ : ∃ g, f = g + 1 := ⟨f - 1, by omega⟩
    have hp := hps p (by simp)
    rw [List.length_cons] at hL ⊢
    match ps with
    | [] =>
      have hsp : spaced [p] = p := spaced_one p
      obtain ⟨t1, t2⟩ := takeWhile_last p hp
      obtain ⟨g1, g2⟩ := loop_word hB (by omega) f (spaced [p]) p [] hne (by rw [hsp, t1]) (by rw [hsp, t2]; rfl)
      constructor
      · intro hw
        obtain ⟨B', h3, h4⟩ := g2 (hw p (by simp))
        exact ⟨B', by rw [h4, loop_nil]; rfl, h3⟩
      · rintro ⟨q, hq, hq2⟩
        rw [List.mem_singleton] at hq
        exact .inl (g1 (hq ▸ hq2))
    | q :: ps =>
      have hsp := spaced_cons p q ps
      obtain ⟨t1, t2⟩ := takeWhile_piece p (spaced (q :: ps)) hp
      obtain ⟨g1, g2⟩ := loop_word hB (by omega) f (spaced (p :: q :: ps)) p (spaced (q :: ps)) hne (by rw [hsp, t1]) (by rw [hsp, t2]; rfl)
      have hlen : (spaced (q :: ps)).length ≤ f := by
        rw [hsp, List.length_append, List.length_cons] at hf; omega
      by_cases hpw : p ∈ wordlist
      · obtain ⟨B', h3, h4⟩ := g2 hpw
        have hl1 : (L ++ wordBits [p]).length = L.length + 11 := by rw [List.length_append, wordBits_length]; rfl
        have happ : L ++ wordBits [p] ++ wordBits (q :: ps) = L ++ wordBits (p :: q :: ps) := by
          rw [List.append_assoc]; simp [wordBits]
        rw [h4]
        by_cases hn : spaced (q :: ps) = []
        · rw [hn, loop_nil]
          have hq : q ∉ wordlist := by
            intro hq
            have := (wordlist_word hq).1
            match ps with
            | [] => rw [spaced_one] at hn; exact this hn
            | r :: ps => rw [spaced_cons] at hn; simp at hn
          constructor
          · intro hw
            exact absurd (hw q (by simp)) hq
          · intro _
            exact .inr ⟨_, _, rfl, by simp only [List.length_cons]; omega⟩
        · obtain ⟨i1, i2⟩ := ih (fun x hx => hps x (by simp [hx])) f B' _ h3 (by rw [hl1]; simp only [List.length_cons] at hL ⊢; omega) (by simp) hn hlen
          rw [hl1] at i1 i2
          constructor
          · intro hw
            obtain ⟨B2, h5, h6⟩ := i1 fun x hx => hw x (by simp [hx])
            refine ⟨B2, ?_, happ ▸ h6⟩
            rw [h5]
            simp only [List.length_cons]
            congr 3
            omega
          · rintro ⟨x, hx, hx2⟩
            have hx' : x ∈ q :: ps := by
              rcases List.mem_cons.mp hx with rfl | hx
              · exact absurd hpw hx2
              · exact hx
            rcases i2 ⟨x, hx', hx2⟩ with h5 | ⟨B2, bi, h5, h6⟩
            · exact .inl h5
            · exact .inr ⟨B2, bi, h5, by simp only [List.length_cons] at h6 ⊢; omega⟩
      · constructor
        · intro hw
          exact absurd (hw p (by simp)) hpw
        · intro _
          exact .inl (g1 hpw)

/-! ### Counting -/

theorem count_acc (s : Bytes) (n : UInt32) : s.foldl (fun n c => if c == 0x20 then n + 1 else n) n = n + UInt32.ofNat (s.count 0x20) := by
  induction s generalizing n with
  | nil => simp
  | cons c s ih =>
    rw [List.foldl_cons, ih, List.count_cons]
    by_cases hc : c == 0x20
    · rw [if_pos hc, if_pos hc, UInt32.ofNat_add]
      rw [UInt32.add_assoc, UInt32.add_comm 1]
      rfl
    · rw [if_neg hc, if_neg hc]; rfl

theorem count_acc_nat (s : Bytes) (n : Nat) : s.foldl (fun n c => if c == 0x20 then n + 1 else n) n = n + s.count 0x20 := by
  induction s generalizing n with
  | nil => simp
  | cons c s ih =>
    rw [List.foldl_cons, ih, List.count_cons]
    by_cases hc : c == 0x20
    · rw [if_pos hc, if_pos hc]; omega
    · rw [if_neg hc, if_neg hc]; omega

theorem count_spaced (ps : List Bytes) (hps : ∀ p ∈ ps, (0x20 : UInt8) ∉ p) (h : ps ≠ []) : (spaced ps).count 0x20 + 1 = ps.length := by
  induction ps with
  | nil => exact absurd rfl h
  | cons p ps ih =>
    have hp := List.count_eq_zero.mpr (hps p (by simp))
    match ps with
    | [] => rw [spaced_one, hp]; rfl
    | q :: ps =>
      have := ih (fun x hx => hps x (by simp [hx])) (by simp)
      rw [spaced_cons, List.count_append, List.count_cons_self, hp, List.length_cons]
      omega

theorem countWords_eq (ps : List Bytes) (hps : ∀ p ∈ ps, (0x20 : UInt8) ∉ p) (h : ps ≠ []) (hl : (spaced ps).length + 1 < 2 ^ 32) :
    (countWords (spaced ps)).toNat = ps.length := by
  unfold countWords
  rw [count_acc, UInt32.zero_add]
  have := count_spaced ps hps h
  have h2 : (spaced ps).count 0x20 ≤ (spaced ps).length := List.count_le_length
  rw [UInt32.toNat_add, UInt32.toNat_ofNat', show UInt32.toNat 1 = 1 from rfl]
  omega

end UB
