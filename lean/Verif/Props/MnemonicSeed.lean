import Verif.Model.MnemonicSeed
import Verif.Spec.MnemonicSeed
import Verif.Props.Hash
import Verif.Props.HDDerive

/-
C86: seeds of mnemonics do not depend on the calls before, with the cache of bip39.c and with callbacks.
-/

namespace UB

open Spec

/-- A text: no NUL among the characters. -/
abbrev NoNul (t : Bytes) : Prop := ∀ b ∈ t, b ≠ 0

theorem cText_put (t buf : Bytes) (ht : NoNul t) : cText (t ++ [0] ++ buf) = t := by
  unfold cText
  induction t with
  | nil => rfl
  | cons x t ih =>
    have hx : (x != 0) = true := by simpa using ht x (by simp)
    rw [List.cons_append, List.cons_append, List.takeWhile_cons, if_pos hx, ih (fun b hb => ht b (by simp [hb]))]

/-! ### One computation -/

theorem chunks_state (init : Sha2Code.PbkdfCtx UInt64) (n : Nat) :
    (List.range n).foldl (fun (st : Sha2Code.PbkdfCtx UInt64 × List (Nat × Nat)) i =>
      (sha512Code.pbkdfUpdate st.1 (2048 / 16), st.2 ++ [((i + 1) * 2048 / 16, 2048)])) (init, [(0, 2048)]) =
    ((List.replicate n 128).foldl sha512Code.pbkdfUpdate init, (List.range (n + 1)).map fun i => (128 * i, 2048)) := by
  induction n with
  | zero => rfl
  | succ n ih =>
    rw [List.range_succ, List.foldl_append, ih, List.foldl_cons, List.foldl_nil, List.replicate_succ', List.foldl_append,
      List.foldl_cons, List.foldl_nil, List.range_succ (n := n + 1), List.map_append, List.map_singleton]
    rw [show (n + 1) * 2048 / 16 = 128 * (n + 1) by omega]

theorem length_F512 (m s : Bytes) (n : Nat) : (pbkdf2F hmacSha512 m s 1 n).length = 64 := by
  induction n with
  | zero => exact length_hmacSha512 _ _
  | succ n ih =>
    rw [pbkdf2F, xorBytes, List.length_zipWith, ih, pbkdf2U, length_hmacSha512]
    rfl

theorem mnemonicSeed_F (m p : Bytes) :
    Spec.mnemonicSeed m p = pbkdf2F hmacSha512 m ([109, 110, 101, 109, 111, 110, 105, 99] ++ p) 1 2047 := by
  unfold Spec.mnemonicSeed pbkdf2
  rw [show (64 + 64 - 1) / 64 = 1 from rfl, List.range_one, List.flatMap_singleton, List.take_of_length_le (by rw [length_F512])]

theorem length_mnemonicSeed (m p : Bytes) : (Spec.mnemonicSeed m p).length = 64 := by
  rw [mnemonicSeed_F, length_F512]

theorem seedRounds39_spec (junk sj m p : Bytes) (hj : junk.length = 128) (hs : sj.length = 264) (hm : m.length < 2 ^ 31)
    (hp : p.length ≤ 256) : seedRounds39 junk sj m p = .ok (Spec.mnemonicSeed m p, seedReports) := by
  unfold seedRounds39
  have h1 : store sj 0 [109, 110, 101, 109, 111, 110, 105, 99] = .ok ([109, 110, 101, 109, 111, 110, 105, 99] ++ sj.drop 8) := by
    unfold store
    rw [if_pos (by rw [hs]; decide)]
    rfl
  have h2 : store ([109, 110, 101, 109, 111, 110, 105, 99] ++ sj.drop 8) 8 p =
      .ok (([109, 110, 101, 109, 111, 110, 105, 99] ++ p) ++ (sj.drop 8).drop p.length) := by
    unfold store
    rw [if_pos (by simp [hs]; omega)]
    rw [List.take_append_of_le_length (by simp), List.drop_append]
    simp
  rw [h1, C.bind_ok, h2, C.bind_ok, List.take_left' (by simp)]
  dsimp only
  rw [chunks_state]
  have := C45_split junk m ([109, 110, 101, 109, 111, 110, 105, 99] ++ p) 1 128 (List.replicate 15 128) hj (by omega) (by simp; omega) (by decide)
  rw [show (128 :: List.replicate 15 128).sum - 1 = 2047 from rfl, show (UInt32.ofNat 1) = 1 from rfl,
    show (128 :: List.replicate 15 128) = List.replicate 16 128 from rfl] at this
  dsimp only
  rw [this, mnemonicSeed_F]
  rfl

theorem seedRounds39_long (junk sj m p : Bytes) (hs : sj.length = 264) (hp : 256 < p.length) : seedRounds39 junk sj m p = .ub := by
  unfold seedRounds39
  have h1 : store sj 0 [109, 110, 101, 109, 111, 110, 105, 99] = .ok ([109, 110, 101, 109, 111, 110, 105, 99] ++ sj.drop 8) := by
    unfold store
    rw [if_pos (by rw [hs]; decide)]
    rfl
  have h2 : store ([109, 110, 101, 109, 111, 110, 105, 99] ++ sj.drop 8) 8 p = .ub := by
    unfold store
    rw [if_neg (by simp [hs]; omega)]
  rw [h1, C.bind_ok, h2, C.bind_ub]

/-! ### The cache as a queue -/

/-- A place holding the pair `r`, or nothing. -/
def Holds39 (e : SeedEntry) (r : Option (Bytes × Bytes)) : Prop :=
  e.mnemonic.length = 256 ∧ e.passphrase.length = 64 ∧ e.seed.length = 64 ∧
  match r with
  | none => e.set = false
  | some (m, p) => e.set = true ∧ cText e.mnemonic = m ∧ cText e.passphrase = p ∧ e.seed = Spec.mnemonicSeed m p

/-- The four places of the remembered pairs, the newest first. -/
def pad4 (recent : List (Bytes × Bytes)) : List (Option (Bytes × Bytes)) := (recent.map some ++ List.replicate 4 none).take 4

/-- The places, the newest first. -/
def SeedCache.ring (c : SeedCache) : List SeedEntry := ((c.entries.drop c.index) ++ (c.entries.take c.index)).reverse

/-- The cache holds the pairs `recent`. -/
def SeedCache.Holds (c : SeedCache) (recent : List (Bytes × Bytes)) : Prop :=
  c.entries.length = 4 ∧ c.index < 4 ∧ List.Forall₂ Holds39 c.ring (pad4 recent)

theorem pad4_mem (recent : List (Bytes × Bytes)) (hr : recent.length ≤ 4) (x : Bytes × Bytes) :
    some x ∈ pad4 recent ↔ x ∈ recent := by
  unfold pad4
  rw [List.take_append, List.take_of_length_le (by simpa using hr), List.mem_append, List.take_replicate]
  constructor
  · rintro (h | h)
    · obtain ⟨y, h1, h2⟩ := List.mem_map.mp h
      cases h2
      exact h1
    · exact absurd (List.eq_of_mem_replicate h) (by simp)
  · exact fun h => Or.inl (List.mem_map.mpr ⟨x, h, rfl⟩)

theorem pad4_cons (recent : List (Bytes × Bytes)) (x : Bytes × Bytes) :
    pad4 ((x :: recent).take 4) = some x :: (pad4 recent).take 3 := by
  unfold pad4
  match recent with
  | [] => rfl
  | [_] => rfl
  | [_, _] => rfl
  | [_, _, _] => rfl
  | _ :: _ :: _ :: _ :: _ => rfl

theorem start_holds : ({} : SeedCache).Holds [] := by
  refine ⟨rfl, by decide, ?_⟩
  have e : SeedCache.ring {} = [({} : SeedEntry), {}, {}, {}] := rfl
  have hd : Holds39 {} none := ⟨length_zeros _, length_zeros _, length_zeros _, rfl⟩
  rw [e]
  exact .cons hd (.cons hd (.cons hd (.cons hd .nil)))

theorem forall₂_mem_left {α β : Type} {R : α → β → Prop} {as : List α} {bs : List β} (h : List.Forall₂ R as bs) {a : α} (ha : a ∈ as) :
    ∃ b ∈ bs, R a b := by
  induction h with
  | nil => cases ha
  | cons h1 h2 ih =>
    rcases List.mem_cons.mp ha with rfl | ha
    · exact ⟨_, by simp, h1⟩
    · obtain ⟨b, hb, hr⟩ := ih ha
      exact ⟨b, by simp [hb], hr⟩

theorem forall₂_mem_right {α β : Type} {R : α → β → Prop} {as : List α} {bs : List β} (h : List.Forall₂ R as bs) {b : β} (hb : b ∈ bs) :
    ∃ a ∈ as, R a b := by
  induction h with
  | nil => cases hb
  | cons h1 h2 ih =>
    rcases List.mem_cons.mp hb with rfl | hb
    · exact ⟨_, by simp, h1⟩
    · obtain ⟨a, ha, hr⟩ := ih hb
      exact ⟨a, by simp [ha], hr⟩

theorem ring_mem (c : SeedCache) (e : SeedEntry) : e ∈ c.ring ↔ e ∈ c.entries := by
  unfold SeedCache.ring
  rw [List.mem_reverse, List.mem_append, or_comm, ← List.mem_append, List.take_append_drop]

theorem find_some_of (m p : Bytes) (es : List SeedEntry)
    (hg : ∀ e ∈ es, e.set = true → e.seed = Spec.mnemonicSeed (cText e.mnemonic) (cText e.passphrase))
    (h : ∃ e ∈ es, e.set = true ∧ cText e.mnemonic = m ∧ cText e.passphrase = p) :
    SeedCache.find m p es = some (Spec.mnemonicSeed m p) := by
  induction es with
  | nil => obtain ⟨_, h, _⟩ := h; cases h
  | cons x es ih =>
    unfold SeedCache.find
    by_cases hx : x.set = true ∧ cText x.mnemonic = m ∧ cText x.passphrase = p
    · rw [if_pos hx, hg x (by simp) hx.1, hx.2.1, hx.2.2]
    · rw [if_neg hx]
      apply ih (fun e he => hg e (by simp [he]))
      obtain ⟨e, he, h⟩ := h
      rcases List.mem_cons.mp he with rfl | he
      · exact absurd h hx
      · exact ⟨e, he, h⟩

theorem find_none_of (m p : Bytes) (es : List SeedEntry)
    (h : ¬ ∃ e ∈ es, e.set = true ∧ cText e.mnemonic = m ∧ cText e.passphrase = p) : SeedCache.find m p es = none := by
  induction es with
  | nil => rfl
  | cons x es ih =>
    unfold SeedCache.find
    rw [if_neg (fun hx => h ⟨x, by simp, hx⟩)]
    exact ih (fun ⟨e, he, h'⟩ => h ⟨e, by simp [he], h'⟩)

theorem holds_iff (c : SeedCache) (recent : List (Bytes × Bytes)) (hr : recent.length ≤ 4) (hc : c.Holds recent) (m p : Bytes) :
    (∃ e ∈ c.entries, e.set = true ∧ cText e.mnemonic = m ∧ cText e.passphrase = p) ↔ (m, p) ∈ recent := by
  constructor
  · rintro ⟨e, he, h1, h2, h3⟩
    obtain ⟨r, hr1, hr2⟩ := forall₂_mem_left hc.2.2 ((ring_mem c e).mpr he)
    rcases r with _ | ⟨m', p'⟩
    · obtain ⟨-, -, -, h⟩ := hr2
      rw [h1] at h
      cases h
    · obtain ⟨-, -, -, -, h4, h5, -⟩ := hr2
      rw [← h2, ← h3, h4, h5]
      exact (pad4_mem _ hr _).mp hr1
  · intro h
    obtain ⟨e, he, -, -, -, h1, h2, h3, -⟩ := forall₂_mem_right hc.2.2 ((pad4_mem _ hr _).mpr h)
    exact ⟨e, (ring_mem c e).mp he, h1, h2, h3⟩

theorem holds_seeds (c : SeedCache) (recent : List (Bytes × Bytes)) (hc : c.Holds recent) (e : SeedEntry) (he : e ∈ c.entries)
    (hs : e.set = true) : e.seed = Spec.mnemonicSeed (cText e.mnemonic) (cText e.passphrase) := by
  obtain ⟨r, hr1, hr2⟩ := forall₂_mem_left hc.2.2 ((ring_mem c e).mpr he)
  rcases r with _ | ⟨m', p'⟩
  · obtain ⟨-, -, -, h⟩ := hr2
    rw [hs] at h
    cases h
  · obtain ⟨-, -, -, -, h4, h5, h6⟩ := hr2
    rw [h6, h4, h5]

theorem ring_set (es : List SeedEntry) (i : Nat) (x : SeedEntry) (hl : es.length = 4) (hi : i < 4) :
    SeedCache.ring ⟨es.set i x, (i + 1) % 4⟩ = x :: (SeedCache.ring ⟨es, i⟩).take 3 := by
  match es, hl with
  | [a, b, c, d], _ =>
    match i, hi with
    | 0, _ => rfl
    | 1, _ => rfl
    | 2, _ => rfl
    | 3, _ => rfl

theorem store_text (buf t : Bytes) (n : Nat) (hb : buf.length = n) (ht : t.length < n) :
    store buf 0 (t ++ [0]) = .ok (t ++ [0] ++ buf.drop (t.length + 1)) := by
  unfold store
  rw [if_pos (by simp; omega)]
  simp

theorem holds39_some (tm tp seed m p : Bytes) (h1 : tm.length = 256) (h2 : tp.length = 64) (h3 : cText tm = m) (h4 : cText tp = p)
    (h5 : seed = Spec.mnemonicSeed m p) : Holds39 ⟨true, tm, tp, seed⟩ (some (m, p)) := by
  have h6 : seed.length = 64 := by rw [h5, length_mnemonicSeed]
  exact ⟨h1, h2, h6, rfl, h3, h4, h5⟩

theorem put_holds (c : SeedCache) (recent : List (Bytes × Bytes)) (hc : c.Holds recent) (m p : Bytes) (hs : ShortTexts m p)
    (hm : NoNul m) (hp : NoNul p) :
    ∃ c', c.put m p (Spec.mnemonicSeed m p) = .ok c' ∧ c'.Holds (((m, p) :: recent).take 4) := by
  obtain ⟨h1, h2, h3⟩ := hc
  have hi : c.index < c.entries.length := by omega
  obtain ⟨r, -, k1, k2, k3, -⟩ := forall₂_mem_left h3 ((ring_mem c c.entries[c.index]).mpr (List.getElem_mem hi))
  unfold SeedCache.put
  rw [List.getElem?_eq_getElem hi]
  dsimp only
  rw [store_text _ m 256 k1 hs.1, C.bind_ok, store_text _ p 64 k2 hs.2, C.bind_ok]
  have hst : store c.entries[c.index].seed 0 (Spec.mnemonicSeed m p) = .ok (Spec.mnemonicSeed m p) := by
    unfold store
    rw [if_pos (by rw [length_mnemonicSeed, k3])]
    rw [List.take_zero, List.nil_append, List.drop_of_length_le (by rw [length_mnemonicSeed, k3]), List.append_nil]
  rw [hst, C.bind_ok]
  refine ⟨_, rfl, by simpa using h1, Nat.mod_lt _ (by decide), ?_⟩
  rw [ring_set _ _ _ h1 h2, pad4_cons]
  refine .cons (holds39_some _ _ _ _ _ ?_ ?_ (cText_put _ _ hm) (cText_put _ _ hp) (Eq.refl _)) (List.forall₂_take 3 h3)
  · have := hs.1
    simp [k1]
    omega
  · have := hs.2
    simp [k2]
    omega

/-! ### The properties -/

theorem recentAfter_length (recent : List (Bytes × Bytes)) (hr : recent.length ≤ 4) (m p : Bytes) :
    (recentAfter recent m p).length ≤ 4 := by
  unfold recentAfter
  split
  · rw [List.length_take]
    omega
  · exact hr

/-- One call on a cache holding `recent`. -/
theorem call_holds (junk sj m p : Bytes) (c : SeedCache) (recent : List (Bytes × Bytes)) (hr : recent.length ≤ 4) (hc : c.Holds recent)
    (hj : junk.length = 128) (hs : sj.length = 264) (hm : m.length < 2 ^ 31) (hp : p.length ≤ 256) (nm : NoNul m) (np : NoNul p) :
    ∃ c', mnemonicToSeed junk sj m p c = .ok (Spec.mnemonicSeed m p, reportsOf recent m p, c') ∧ c'.Holds (recentAfter recent m p) := by
  unfold mnemonicToSeed reportsOf recentAfter
  by_cases hsh : ShortTexts m p
  · by_cases hin : (m, p) ∈ recent
    · refine ⟨c, ?_, ?_⟩
      · rw [if_pos hsh, if_pos ⟨hsh, hin⟩]
        have hf := find_some_of m p c.entries (holds_seeds c recent hc) ((holds_iff c recent hr hc m p).mpr hin)
        generalize Spec.mnemonicSeed m p = seed at hf ⊢
        rw [hf]
        rfl
      · rw [if_neg (fun h => h.2 hin)]
        exact hc
    · obtain ⟨c', h1, h2⟩ := put_holds c recent hc m p hsh nm np
      refine ⟨c', ?_, ?_⟩
      · rw [if_pos hsh, find_none_of m p c.entries (fun h => hin ((holds_iff c recent hr hc m p).mp h)), if_neg (fun h => hin h.2)]
        dsimp only
        rw [seedRounds39_spec junk sj m p hj hs hm hp, C.bind_ok]
        dsimp only
        rw [if_pos hsh, h1, C.bind_ok]
        dsimp only [C.pure_eq]
      · rw [if_pos ⟨hsh, hin⟩]
        exact h2
  · refine ⟨c, ?_, ?_⟩
    · rw [if_neg hsh, if_neg (fun h => hsh h.1)]
      dsimp only
      rw [seedRounds39_spec junk sj m p hj hs hm hp, C.bind_ok]
      dsimp only
      rw [if_neg hsh]
      dsimp only [C.pure_eq]
    · rw [if_neg (fun h => hsh h.1)]
      exact hc

/-- A call of a program: the uninitialised memory it meets and its arguments. -/
structure SeedCall where
  junk : Bytes
  saltJunk : Bytes
  mnemonic : Bytes
  passphrase : Bytes

/-- The memory has its sizes, the arguments are texts and the passphrase is not longer than documented. -/
def SeedCall.Ok (k : SeedCall) : Prop :=
  k.junk.length = 128 ∧ k.saltJunk.length = 264 ∧ k.mnemonic.length < 2 ^ 31 ∧ k.passphrase.length ≤ 256 ∧ NoNul k.mnemonic ∧
    NoNul k.passphrase

/-- The arguments of a call. -/
def SeedCall.texts (k : SeedCall) : Bytes × Bytes := (k.mnemonic, k.passphrase)

/-- A sequence of calls of the model: seeds and reports. -/
def seedCalls : List SeedCall → SeedCache → C (List (Bytes × List (Nat × Nat)) × SeedCache)
  | [], c => .ok ([], c)
  | k :: ks, c => do
    let (seed, calls, c) ← mnemonicToSeed k.junk k.saltJunk k.mnemonic k.passphrase c
    let (rs, c) ← seedCalls ks c
    return ((seed, calls) :: rs, c)

theorem calls_hold (ks : List SeedCall) (hk : ∀ k ∈ ks, k.Ok) (c : SeedCache) (recent : List (Bytes × Bytes)) (hr : recent.length ≤ 4)
    (hc : c.Holds recent) :
    ∃ c', seedCalls ks c = .ok (seedResults recent (ks.map SeedCall.texts), c') ∧ c'.Holds (recentOf recent (ks.map SeedCall.texts)) ∧
      (recentOf recent (ks.map SeedCall.texts)).length ≤ 4 := by
  induction ks generalizing c recent with
  | nil => exact ⟨c, rfl, hc, hr⟩
  | cons k ks ih =>
    obtain ⟨a1, a2, a3, a4, a5, a6⟩ := hk k (by simp)
    obtain ⟨c1, h1, h2⟩ := call_holds k.junk k.saltJunk k.mnemonic k.passphrase c recent hr hc a1 a2 a3 a4 a5 a6
    obtain ⟨c2, h3, h4⟩ := ih (fun k' hk' => hk k' (by simp [hk'])) c1 _ (recentAfter_length recent hr _ _) h2
    refine ⟨c2, ?_, h4⟩
    unfold seedCalls
    rw [h1, C.bind_ok]
    dsimp only
    rw [h3, C.bind_ok]
    rfl

/-- C86: whatever was asked before, every call of `mnemonic_to_seed` gives the BIP39 seed of its arguments and nothing is written outside
the buffers; the callback sees the sixteen parts of the work, or nothing when the answer is among the last four computed. -/
theorem C86_history (ks : List SeedCall) (hk : ∀ k ∈ ks, k.Ok) :
    ∃ c, seedCalls ks {} = .ok (seedResults [] (ks.map SeedCall.texts), c) := by
  obtain ⟨c, h, -⟩ := calls_hold ks hk {} [] (by simp) start_holds
  exact ⟨c, h⟩

/-- C86: the same in terms of one call after any others: the seed and whether the callback is called. -/
theorem C86_after (ks : List SeedCall) (hk : ∀ k ∈ ks, k.Ok) (k : SeedCall) (ho : k.Ok) :
    ∃ rs c calls c', seedCalls ks {} = .ok (rs, c) ∧
      mnemonicToSeed k.junk k.saltJunk k.mnemonic k.passphrase c = .ok (Spec.mnemonicSeed k.mnemonic k.passphrase, calls, c') ∧
      (calls = [] ∨ calls = seedReports) ∧
      (calls = [] ↔ ShortTexts k.mnemonic k.passphrase ∧ k.texts ∈ recentOf [] (ks.map SeedCall.texts)) := by
  obtain ⟨c, h1, h2, h3⟩ := calls_hold ks hk {} [] (by simp) start_holds
  obtain ⟨a1, a2, a3, a4, a5, a6⟩ := ho
  obtain ⟨c', h4, -⟩ := call_holds k.junk k.saltJunk k.mnemonic k.passphrase c _ h3 h2 a1 a2 a3 a4 a5 a6
  refine ⟨_, c, _, c', h1, h4, ?_, ?_⟩
  · unfold reportsOf
    split
    · exact Or.inl rfl
    · exact Or.inr rfl
  · unfold reportsOf
    constructor
    · intro h
      split at h
      · assumption
      · exact absurd h (by decide)
    · exact fun h => if_pos h

/-- C86: the seed is the one which `HDPrivateKey::fromMnemonic` uses. -/
theorem C86_wallet (ks : List SeedCall) (hk : ∀ k ∈ ks, k.Ok) (k : SeedCall) (ho : k.Ok) :
    ∃ rs c calls c', seedCalls ks {} = .ok (rs, c) ∧
      mnemonicToSeed k.junk k.saltJunk k.mnemonic k.passphrase c = .ok (HDPriv.mnemonicSeed k.mnemonic k.passphrase, calls, c') := by
  obtain ⟨rs, c, calls, c', h1, h2, -⟩ := C86_after ks hk k ho
  have h31 := ho.2.2.1
  have h256 := ho.2.2.2.1
  refine ⟨rs, c, calls, c', h1, ?_⟩
  rw [HDPriv.C68_seed _ _ (by omega) (by omega)]
  exact h2

/-- C86, where the documentation fails: a passphrase of more than 256 characters is not cut but written beyond the end of a buffer, whatever
was asked before. -/
theorem C86_long_overflows (junk sj m p : Bytes) (c : SeedCache) (hs : sj.length = 264) (hp : 256 < p.length) :
    mnemonicToSeed junk sj m p c = .ub := by
  unfold mnemonicToSeed
  have : ¬ (m.length < 256 ∧ p.length < 64) := by omega
  rw [if_neg this]
  dsimp only
  rw [seedRounds39_long junk sj m p hs hp, C.bind_ub]

/-- C86: the last four phrases computed, their passphrases and seeds stay readable in memory (no function clears them). -/
theorem C86_stays (ks : List SeedCall) (hk : ∀ k ∈ ks, k.Ok) (m p : Bytes) (hin : (m, p) ∈ recentOf [] (ks.map SeedCall.texts)) :
    ∃ rs c, seedCalls ks {} = .ok (rs, c) ∧ ∃ e ∈ c.entries, cText e.mnemonic = m ∧ cText e.passphrase = p ∧ e.seed = Spec.mnemonicSeed m p := by
  obtain ⟨c, h1, h2, h3⟩ := calls_hold ks hk {} [] (by simp) start_holds
  obtain ⟨e, he, a, b, d⟩ := (holds_iff c _ h3 h2 m p).mpr hin
  refine ⟨_, c, h1, e, he, b, d, ?_⟩
  rw [holds_seeds c _ h2 e he a, b, d]

/-! ### The callback of `HDPrivateKey::fromMnemonic` -/

theorem roundsP (mnemonic : Bytes) (s : Bytes × Bytes) (calls : List Nat) (is : List Nat) :
    is.foldl (HDPriv.seedRoundP mnemonic) (s, calls) =
      (is.foldl (fun s _ => HDPriv.seedRound mnemonic s) s, calls ++ is.filter fun i => i % 256 == 255) := by
  induction is generalizing s calls with
  | nil => rw [List.foldl_nil, List.foldl_nil, List.filter_nil, List.append_nil]
  | cons i is ih =>
    rw [List.foldl_cons, List.foldl_cons]
    unfold HDPriv.seedRoundP
    have e : i &&& 0xFF = i % 256 := Nat.and_two_pow_sub_one_eq_mod i 8
    have := ih (HDPriv.seedRound mnemonic s)
    unfold HDPriv.seedRoundP at this
    rw [e, this, List.filter_cons]
    by_cases h : i % 256 = 255
    · rw [if_pos h, if_pos (by simpa using h), List.append_assoc]
      rfl
    · rw [if_neg h, if_neg (by simpa using h)]

theorem foldl_const {α β : Type} (f : α → α) (s : α) (is js : List β) (h : is.length = js.length) :
    is.foldl (fun s _ => f s) s = js.foldl (fun s _ => f s) s := by
  induction is generalizing s js with
  | nil => cases js with
    | nil => rfl
    | cons _ _ => cases h
  | cons i is ih => cases js with
    | nil => cases h
    | cons j js => exact ih (f s) js (by simpa using h)

/-- C86: with a callback `fromMnemonic` gives the same key; the callback is called eight times, with the fractions
`255/2047, 511/2047, …, 2047/2047`. -/
theorem C86_callback (k : HDPriv) (mnemonic password : Bytes) (net : Network) (z : BN) :
    k.fromMnemonicP mnemonic password net z =
      (k.fromMnemonic mnemonic password net z).bind fun r => .ok (r, (List.range 8).map fun i => 256 * i + 255) := by
  unfold HDPriv.fromMnemonicP HDPriv.fromMnemonic HDPriv.mnemonicSeed
  dsimp only
  rw [roundsP, foldl_const _ _ (List.range' 1 2047) (List.range 2047) (by rw [List.length_range', List.length_range])]
  rw [show (List.range' 1 2047).filter (fun i => i % 256 == 255) = (List.range 8).map (fun i => 256 * i + 255) by decide +kernel]
  rfl

/-! ### Examples -/

/-- A call with the texts "ab" and "c". -/
def exSeedCall : SeedCall := ⟨zeros 128, zeros 264, [97, 98], [99]⟩

theorem exSeedCall_ok : exSeedCall.Ok := by
  refine ⟨length_zeros _, length_zeros _, by decide, by decide, ?_, ?_⟩
  · intro b hb; revert b; decide
  · intro b hb; revert b; decide

example : ∃ c, seedCalls [exSeedCall, exSeedCall] {} =
    .ok ([(Spec.mnemonicSeed [97, 98] [99], seedReports), (Spec.mnemonicSeed [97, 98] [99], [])], c) := by
  have h := C86_history [exSeedCall, exSeedCall] (by intro k hk; rcases List.mem_cons.mp hk with rfl | hk <;> [skip; rcases List.mem_singleton.mp hk with rfl] <;> exact exSeedCall_ok)
  have e : seedResults [] ([exSeedCall, exSeedCall].map SeedCall.texts) =
      [(Spec.mnemonicSeed [97, 98] [99], seedReports), (Spec.mnemonicSeed [97, 98] [99], [])] := by
    simp only [List.map_cons, List.map_nil, SeedCall.texts, exSeedCall, seedResults]
    generalize Spec.mnemonicSeed [97, 98] [99] = seed
    rw [show reportsOf [] [97, 98] [99] = seedReports by decide,
      show reportsOf (recentAfter [] [97, 98] [99]) [97, 98] [99] = [] by decide]
  rw [e] at h
  exact h

example : ∃ rs c calls c', seedCalls [exSeedCall] {} = .ok (rs, c) ∧
    mnemonicToSeed (zeros 128) (zeros 264) [97, 98] [99] c = .ok (HDPriv.mnemonicSeed [97, 98] [99], calls, c') :=
  C86_wallet [exSeedCall] (by intro k hk; rcases List.mem_singleton.mp hk with rfl; exact exSeedCall_ok) exSeedCall exSeedCall_ok

example : ∃ rs c, seedCalls [exSeedCall] {} = .ok (rs, c) ∧
    ∃ e ∈ c.entries, cText e.mnemonic = [97, 98] ∧ cText e.passphrase = [99] ∧ e.seed = Spec.mnemonicSeed [97, 98] [99] :=
  C86_stays [exSeedCall] (by intro k hk; rcases List.mem_singleton.mp hk with rfl; exact exSeedCall_ok) _ _ (by decide)

example : mnemonicToSeed (zeros 128) (zeros 264) [97] (List.replicate 257 97) {} = .ub :=
  C86_long_overflows _ _ _ _ _ (length_zeros _) (by rw [List.length_replicate]; decide)

end UB
