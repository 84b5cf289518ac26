import Verif.Lemmas.Sha3Rounds
import Verif.Lemmas.Sha2Stream
import Verif.Lemmas.Mnemonic
import Verif.Lemmas.Bech32Codec

/-
A context of sha3.c follows the message it was fed with.
-/

namespace UB
namespace Sha3
open Spec

/-- The state after the whole blocks `x`. -/
def stateOf (rate : Nat) (x : Bytes) : List UInt64 := (chunks rate x).foldl Spec.Sha3.absorb (List.replicate 25 0)

/-- The context `c` has taken the bytes `m`. -/
structure Rep (rate : Nat) (c : Ctx) (m : Bytes) : Prop where
  size : c.blockSize = rate
  buffer : c.message.length = 192
  lanes : c.hash.length = 25
  parts : ∃ q x r, m = x ++ r ∧ x.length = q * rate ∧ r.length < rate ∧ c.rest = r.length ∧ c.hash = stateOf rate x ∧ c.message.take r.length = r

theorem Rate.pos {rate : Nat} (h : Rate rate) : 0 < rate ∧ rate ≤ 144 := by rcases h with rfl | rfl | rfl | rfl <;> decide

theorem stateOf_snoc (rate : Nat) (h : 0 < rate) (q : Nat) (x b : Bytes) (hx : x.length = q * rate) (hb : b.length = rate) :
    stateOf rate (x ++ b) = Spec.Sha3.absorb (stateOf rate x) b := by
  unfold stateOf
  rw [chunks_append rate h q x b hx, chunks_one rate h b hb, List.foldl_append, List.foldl_cons, List.foldl_nil]

theorem not_finalized {rate n : Nat} (hr : Rate rate) (h : n < rate) : finalized n = false := by
  have := hr.pos
  unfold finalized
  have h2 : n < 2 ^ 31 := by norm_num; omega
  exact Nat.testBit_lt_two_pow h2

/-- The loop over the whole blocks. -/
theorem blocks_eq (al : Bool) (rate : Nat) (hr : Rate rate) : ∀ (k : Nat) (q : Nat) (x msg : Bytes) (hash : List UInt64) (message : Bytes),
    x.length = q * rate → hash = stateOf rate x → hash.length = 25 → message.length = 192 → msg.length ≤ k →
    ∃ q' y r message', blocks al rate k hash message msg = .ok (stateOf rate (x ++ y), message', r) ∧ msg = y ++ r ∧ (x ++ y).length = q' * rate ∧ r.length < rate ∧
      (stateOf rate (x ++ y)).length = 25 ∧ message'.length = 192 := by
  have hp := hr.pos
  intro k
  induction k with
  | zero =>
    intro q x msg hash message hx hh hl hm hk
    have : msg = [] := List.length_eq_zero_iff.mp (by omega)
    subst this
    exact ⟨q, [], [], message, by simp [blocks, hh], rfl, by simpa using hx, by simpa using hp.1, by simpa [← hh] using hl, hm⟩
  | succ k ih =>
    intro q x msg hash message hx hh hl hm hk
    rw [blocks]
    by_cases hs : msg.length < rate
    · rw [if_pos hs]
      exact ⟨q, [], msg, message, by simp [hh], rfl, by simpa using hx, hs, by simpa [← hh] using hl, hm⟩
    · rw [if_neg hs]
      have hld : load msg 0 rate = .ok (msg.take rate) := by unfold load; rw [if_pos (by omega)]; rfl
      rw [hld, C.bind_ok]
      have hbl : (msg.take rate).length = rate := by simp; omega
      have step : ∀ message1 : Bytes, message1.length = 192 → ∀ blk : Bytes, blk.take rate = msg.take rate → rate ≤ blk.length →
          ∃ q' y r message', blocks al rate k (processBlock hash blk rate) message1 (msg.drop rate) = .ok (stateOf rate (x ++ y), message', r) ∧ msg = y ++ r ∧
            (x ++ y).length = q' * rate ∧ r.length < rate ∧ (stateOf rate (x ++ y)).length = 25 ∧ message'.length = 192 := by
        intro message1 hm1 blk hblk hbl2
        obtain ⟨e1, e2⟩ := processBlock_eq hash blk rate hr hl hbl2
        rw [hblk] at e1 e2
        obtain ⟨q', y, r, message', g1, g2, g3, g4, g5, g6⟩ := ih (q + 1) (x ++ msg.take rate) (msg.drop rate) (processBlock hash blk rate) message1
          (by rw [List.length_append, hx, hbl, Nat.succ_mul]) (by rw [stateOf_snoc rate hp.1 q x _ hx hbl, e1, hh]) (by rw [e1]; exact e2) hm1 (by simp; omega)
        refine ⟨q', msg.take rate ++ y, r, message', ?_, ?_, ?_, g4, ?_, g6⟩
        · rw [g1, List.append_assoc]
        · rw [List.append_assoc, ← g2, List.take_append_drop]
        · rw [← List.append_assoc]; exact g3
        · rw [← List.append_assoc]; exact g5
      cases al with
      | true => exact step message hm msg rfl (by omega)
      | false =>
        have hst : store message 0 (msg.take rate) = .ok (msg.take rate ++ message.drop (msg.take rate).length) := store_zero _ _ (by omega)
        show ∃ q' y r message', (store message 0 (msg.take rate) >>= _) = _ ∧ _
        rw [hst, C.bind_ok]
        exact step _ (by rw [List.length_append, List.length_drop, hbl]; omega) (msg.take rate ++ message.drop (msg.take rate).length) (by rw [List.take_append_of_le_length (by omega), List.take_take, Nat.min_self]) (by rw [List.length_append]; omega)

theorem rep_update (al : Bool) (rate : Nat) (hr : Rate rate) (c : Ctx) (m msg : Bytes) (h : Rep rate c m) :
    ∃ c', update al c msg = .ok c' ∧ Rep rate c' (m ++ msg) := by
  have hp := hr.pos
  obtain ⟨hash, message, rest, bs⟩ := c
  obtain ⟨hs, hb, hl, q, x, r, rfl, hx, hrl, hrest, hh, ht⟩ := h
  dsimp only at hs hb hl hrest hh ht
  have hs := hs.symm; subst hs; subst hrest
  unfold update
  dsimp only
  rw [not_finalized hr hrl, if_neg (by decide), if_neg (by omega)]
  have save : ∀ (q' : Nat) (x' r' message1 : Bytes) (rest' : Nat), (x ++ r) ++ msg = x' ++ r' → x'.length = q' * rate → r'.length < rate → (stateOf rate x').length = 25 → message1.length = 192 →
      rest' = (r.length + msg.length) % rate →
      ∃ c', (store message1 0 r' >>= fun message => (pure { hash := stateOf rate x', message, rest := rest', blockSize := rate } : C Ctx)) = .ok c' ∧ Rep rate c' ((x ++ r) ++ msg) := by
    intro q' x' r' message1 rest' e1 e2 e3 e4 e5 e6
    rw [store_zero message1 r' (by omega), C.bind_ok]
    refine ⟨_, rfl, ?_⟩
    have hlen : rest' = r'.length := by
      have := congrArg List.length e1
      simp only [List.length_append, hx, e2] at this
      rw [e6]
      have h1 : (r.length + msg.length) % rate = (q * rate + r.length + msg.length) % rate := by
        rw [Nat.add_assoc, Nat.mul_comm, Nat.mul_add_mod]
      rw [h1, this, Nat.mul_comm, Nat.mul_add_mod, Nat.mod_eq_of_lt e3]
    refine ⟨rfl, ?_, e4, q', x', r', e1, e2, e3, hlen, rfl, ?_⟩
    · simp only [List.length_append, List.length_drop]; omega
    · simp
  by_cases h0 : r.length = 0
  · have hr0 : r = [] := List.length_eq_zero_iff.mp h0
    rw [if_neg (by simp [h0])]
    obtain ⟨q', y, r', message', g1, g2, g3, g4, g5, g6⟩ := blocks_eq al rate hr msg.length q x msg hash message hx hh hl hb (Nat.le_refl _)
    rw [g1, C.bind_ok]
    exact save q' (x ++ y) r' message' _ (by rw [hr0, g2]; simp) g3 g4 g5 g6 rfl
  · rw [if_pos h0]
    have hmsg : message = r ++ message.drop r.length := by
      conv_lhs => rw [← List.take_append_drop r.length message, ht]
    have hst : ∀ d : Bytes, d.length ≤ rate - r.length → store message r.length d = .ok (r ++ d ++ (message.drop r.length).drop d.length) := by
      intro d hd
      conv_lhs => rw [hmsg]
      exact store_put_mid r (message.drop r.length) d (by rw [List.length_drop]; omega)
    by_cases hlt : msg.length < rate - r.length
    · rw [hst _ (by simp), C.bind_ok, if_pos hlt]
      refine ⟨_, rfl, ?_⟩
      rw [List.take_of_length_le (show msg.length ≤ rate - r.length by omega)]
      have hmod : (r.length + msg.length) % rate = (r ++ msg).length := by rw [Nat.mod_eq_of_lt (by omega), List.length_append]
      refine ⟨rfl, ?_, hl, q, x, r ++ msg, by simp, hx, by rw [List.length_append]; omega, hmod, hh, ?_⟩
      · simp only [List.length_append, List.length_drop]; omega
      · show ((r ++ msg) ++ _).take _ = _
        rw [List.take_left]
    · obtain ⟨d, rest, rfl, hd⟩ : ∃ d rest, msg = d ++ rest ∧ d.length = rate - r.length :=
        ⟨msg.take (rate - r.length), msg.drop (rate - r.length), (List.take_append_drop _ _).symm, by simp; omega⟩
      rw [show (d ++ rest).take (rate - r.length) = d by rw [← hd, List.take_left], hst d (by omega), C.bind_ok, if_neg hlt,
        show (d ++ rest).drop (rate - r.length) = rest by rw [← hd, List.drop_left]]
      have hfl : (r ++ d).length = rate := by rw [List.length_append]; omega
      have hTl : ((message.drop r.length).drop d.length).length = 192 - rate := by simp only [List.length_drop]; omega
      generalize (message.drop r.length).drop d.length = T at hTl ⊢
      obtain ⟨e1, e2⟩ := processBlock_eq hash (r ++ d ++ T) rate hr hl (by rw [List.length_append]; omega)
      rw [show (r ++ d ++ T).take rate = r ++ d by rw [← hfl, List.take_left]] at e1 e2
      obtain ⟨q', y, r', message', g1, g2, g3, g4, g5, g6⟩ := blocks_eq al rate hr (d ++ rest).length (q + 1) (x ++ (r ++ d)) rest
        (processBlock hash (r ++ d ++ T) rate) (r ++ d ++ T)
        (by rw [List.length_append, hx, hfl, Nat.succ_mul]) (by rw [stateOf_snoc rate hp.1 q x _ hx hfl, ← hh]; exact e1) (by rw [e1]; exact e2)
        (by rw [List.length_append, hfl, hTl]; omega) (by simp)
      rw [g1, C.bind_ok]
      refine save q' _ r' message' _ ?_ g3 g4 g5 g6 rfl
      rw [g2]; simp

theorem rep_init (bits : Nat) (rate : Nat) (hr : Rate rate) (hb : 1600 - bits * 2 = rate * 8) :
    ∃ c, init bits = .ok c ∧ Rep rate c [] := by
  have hp := hr.pos
  refine ⟨{ Ctx.zero with blockSize := (1600 - bits * 2) / 8 }, ?_, ?_, rfl, rfl, 0, [], [], rfl, by simp, hp.1, rfl, ?_, rfl⟩
  · unfold init
    dsimp only
    rw [if_pos (by rw [hb]; rcases hr with rfl | rfl | rfl | rfl <;> decide)]
    rfl
  · show (1600 - bits * 2) / 8 = rate
    rw [hb]; omega
  · unfold stateOf; rw [chunks_nil]; rfl

theorem bytes_le (w : UInt64) : ((List.range 8).map fun i => (w >>> UInt64.ofNat (8 * i)).toUInt8) = leBytes 8 w.toNat := by
  have key : ∀ (k n : Nat), leBytes k n = (List.range k).map fun i => UInt8.ofNat (n / 2 ^ (8 * i) % 256) := by
    intro k
    induction k with
    | zero => intro n; rfl
    | succ k ih =>
      intro n
      rw [List.range_succ_eq_map, List.map_cons, List.map_map, leBytes, ih]
      congr 1
      · simp
      · apply List.map_congr_left
        intro i _
        simp only [Function.comp]
        rw [Nat.div_div_eq_div_mul, show 256 * 2 ^ (8 * i) = 2 ^ (8 * i.succ) by rw [Nat.mul_succ, Nat.pow_add, Nat.mul_comm]]
  rw [key]
  apply List.map_congr_left
  intro i hi
  rw [List.mem_range] at hi
  apply UInt8.toNat_inj.mp
  have e : (8 * i) % 18446744073709551616 % 64 = 8 * i := by omega
  simp [UInt64.toNat_shiftRight, Nat.shiftRight_eq_div_pow, e]

theorem lastBlock_eq (rate q : Nat) (x r message : Bytes) (hr : Rate rate) (hbf : message.length = 192) (hx : x.length = q * rate) (hrl : r.length < rate) (ht : message.take r.length = r) :
    (r ++ Spec.Sha3.padding rate (x ++ r).length).length = rate ∧ ∃ T : Bytes, lastBlock message r.length rate = .ok (r ++ Spec.Sha3.padding rate (x ++ r).length ++ T) := by
  have hp := hr.pos
  have hmsg : message = r ++ message.drop r.length := by
    conv_lhs => rw [← List.take_append_drop r.length message, ht]
  have hm : (x ++ r).length % rate = r.length := by
    rw [List.length_append, hx, Nat.mul_comm, Nat.mul_add_mod, Nat.mod_eq_of_lt hrl]
  unfold Spec.Sha3.padding lastBlock
  rw [hm]
  have h1 : store message r.length (zeros (rate - r.length)) = .ok (r ++ zeros (rate - r.length) ++ (message.drop r.length).drop (zeros (rate - r.length)).length) := by
    conv_lhs => rw [hmsg]
    exact store_put_mid r (message.drop r.length) _ (by rw [List.length_drop, length_zeros]; omega)
  rw [h1, C.bind_ok]
  generalize (message.drop r.length).drop (zeros (rate - r.length)).length = T
  obtain ⟨n, hn⟩ : ∃ n, rate - r.length = n + 1 := ⟨rate - r.length - 1, by omega⟩
  have h2 : byteAt (r ++ zeros (rate - r.length) ++ T) r.length = .ok 0 := by
    unfold byteAt; rw [hn, zeros_succ]; simp
  have h3 : store (r ++ zeros (rate - r.length) ++ T) r.length [(0 : UInt8) ||| 0x06] = .ok (r ++ 6 :: (zeros n ++ T)) := by
    rw [List.append_assoc, store_put_mid r _ _ (by rw [List.length_append, length_zeros]; simp; omega), hn, zeros_succ]; simp
  rw [h2, C.bind_ok, h3, C.bind_ok]
  obtain rfl | ⟨k, rfl⟩ : n = 0 ∨ ∃ k, n = k + 1 := by cases n with | zero => exact Or.inl rfl | succ k => exact Or.inr ⟨k, rfl⟩
  · rw [if_pos (by omega)]
    refine ⟨by simp; omega, T, ?_⟩
    have e : rate - 1 = r.length := by omega
    have h4 : byteAt (r ++ 6 :: (zeros 0 ++ T)) r.length = .ok 6 := by unfold byteAt; simp
    rw [e, h4, C.bind_ok, store_put_mid r _ _ (by simp), show (6 : UInt8) ||| 0x80 = 0x86 by decide]
    simp [zeros]
  · rw [if_neg (by omega)]
    refine ⟨by simp [length_zeros]; omega, T, ?_⟩
    have e : rate - 1 = (r ++ 6 :: zeros k).length := by simp [length_zeros]; omega
    have e2 : r ++ 6 :: (zeros (k + 1) ++ T) = (r ++ 6 :: zeros k) ++ (0 :: T) := by
      rw [show zeros (k + 1) = zeros k ++ zeros 1 from Sha2Code.zeros_add k 1]; simp [zeros]
    have h4 : byteAt ((r ++ 6 :: zeros k) ++ (0 :: T)) (r ++ 6 :: zeros k).length = .ok 0 := by unfold byteAt; simp
    rw [e, e2, h4, C.bind_ok, store_put_mid _ _ _ (by simp), show rate - r.length - 2 = k by omega]
    simp

theorem final_eq (bits rate : Nat) (hr : Rate rate) (hb : 1600 - bits * 2 = rate * 8) (c : Ctx) (m : Bytes) (h : Rep rate c m) :
    final c = .ok (Ctx.zero, Spec.Sha3.hash bits m) := by
  have hp := hr.pos
  obtain ⟨hash, message, rest, bs⟩ := c
  obtain ⟨hs, hbf, hl, q, x, r, rfl, hx, hrl, hrest, hh, ht⟩ := h
  dsimp only at hs hbf hl hrest hh ht
  have hs := hs.symm; subst hs; subst hrest
  obtain ⟨hpl, T, hst⟩ := lastBlock_eq rate q x r message hr hbf hx hrl ht
  obtain ⟨e1, e2⟩ := processBlock_eq hash (r ++ Spec.Sha3.padding rate (x ++ r).length ++ T) rate hr hl (by rw [List.length_append]; omega)
  rw [List.take_append_of_le_length (by omega), List.take_of_length_le (by omega)] at e1 e2
  unfold final finish
  dsimp only
  rw [not_finalized hr hrl, if_neg (by decide), if_neg (by omega), hst, C.bind_ok, C.pure_eq, C.bind_ok]
  dsimp only
  have hd : 100 - rate / 2 = bits / 8 := by rcases hr with rfl | rfl | rfl | rfl <;> omega
  rw [if_pos (by rcases hr with rfl | rfl | rfl | rfl <;> decide), hd, e1, hh, ← stateOf_snoc rate hp.1 q x _ hx hpl]
  have hrate : (1600 - 2 * bits) / 8 = rate := by omega
  have hh2 : Spec.Sha3.hash bits (x ++ r) = (Spec.Sha3.stateBytes (stateOf rate (x ++ (r ++ Spec.Sha3.padding rate (x ++ r).length)))).take (bits / 8) := by
    unfold Spec.Sha3.hash stateOf
    dsimp only
    rw [hrate, List.append_assoc]
  rw [hh2, C.pure_eq]
  unfold Spec.Sha3.stateBytes
  simp only [bytes_le]

end Sha3
end UB
