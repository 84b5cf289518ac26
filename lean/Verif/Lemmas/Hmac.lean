import Verif.Lemmas.Sha2Words
import Verif.Model.Hash

/-
HMAC and PBKDF2: hmac.c and pbkdf2.c compute RFC 2104 and RFC 2898.
-/

set_option linter.unusedSectionVars false

namespace UB

/-- What HMAC and PBKDF2 need to know about the words. -/
structure Sha2Pads {W BC : Type} [Add W] [OfNat W 0] [Inhabited W]
    (P : Sha2Code W BC) (S : Spec.Sha2 W) : Prop where
  small : S.wordBytes ≤ 8
  word_rt' : ∀ bs : Bytes, bs.length = S.wordBytes →
    Spec.beBytes S.wordBytes (S.toNat (S.ofNat (Spec.beNat bs))) = bs
  xor_bytes : ∀ x y : W, Spec.beBytes S.wordBytes (S.toNat (P.xor x y))
    = Spec.xorBytes (Spec.beBytes S.wordBytes (S.toNat x)) (Spec.beBytes S.wordBytes (S.toNat y))
  xor_opad : ∀ x : W, P.xor (P.xor x P.opad) P.opad = x
  opad : Spec.beBytes S.wordBytes (S.toNat P.opad) = List.replicate S.wordBytes 0x5c
  ipad : Spec.beBytes S.wordBytes (S.toNat P.ipad) = List.replicate S.wordBytes 0x36
  zero : Spec.beBytes S.wordBytes (S.toNat 0) = zeros S.wordBytes
  g8 : Spec.beBytes S.wordBytes (S.toNat P.g8) = [0x80] ++ zeros (S.wordBytes - 1)
  g15 : zeros S.wordBytes ++ Spec.beBytes S.wordBytes (S.toNat P.g15)
    = Spec.beBytes (2 * S.wordBytes) (8 * (24 * S.wordBytes))

theorem leBytes_xor (k x y : Nat) :
    Spec.leBytes k (x ^^^ y) = Spec.xorBytes (Spec.leBytes k x) (Spec.leBytes k y) := by
  induction k generalizing x y with
  | zero => rfl
  | succ k ih =>
    have h1 : (x ^^^ y) / 256 = (x / 256) ^^^ (y / 256) := Nat.xor_div_two_pow (n := 8)
    simp only [Spec.leBytes, Spec.xorBytes, List.zipWith_cons_cons]
    rw [h1, ih]
    congr 1
    apply UInt8.toNat_inj.mp
    have h2 : (x ^^^ y) % 256 = (x % 256) ^^^ (y % 256) := Nat.xor_mod_two_pow (n := 8)
    simp only [UInt8.toNat_xor, UInt8.toNat_ofNat', Nat.reducePow, Nat.mod_mod, h2]
    rw [← h2, Nat.mod_mod]

theorem beBytes_xor (k x y : Nat) :
    Spec.beBytes k (x ^^^ y) = Spec.xorBytes (Spec.beBytes k x) (Spec.beBytes k y) := by
  unfold Spec.beBytes
  rw [leBytes_xor, Spec.xorBytes, Spec.xorBytes, List.reverse_zipWith]
  rw [Spec.length_leBytes, Spec.length_leBytes]

theorem sha256Pads : Sha2Pads sha256Code Spec.sha256P where
  small := by decide
  word_rt' bs h := by
    have h4 : bs.length = 4 := h
    have e : Spec.sha256P.toNat (Spec.sha256P.ofNat (Spec.beNat bs)) = Spec.beNat bs := by
      show (UInt32.ofNat _).toNat = _
      rw [UInt32.toNat_ofNat', Nat.mod_eq_of_lt]
      have := memNat_lt bs.reverse
      rw [List.length_reverse, h4] at this
      rw [beNat_eq]; exact this
    rw [e, ← h, beBytes_beNat]
  xor_bytes x y := by
    show Spec.beBytes 4 (x ^^^ y).toNat = _
    rw [UInt32.toNat_xor, beBytes_xor]; rfl
  xor_opad x := by
    show x ^^^ _ ^^^ _ = x
    rw [UInt32.xor_assoc, UInt32.xor_self, UInt32.xor_zero]
  opad := by decide
  ipad := by decide
  zero := by decide
  g8 := by decide
  g15 := by decide

theorem sha512Pads : Sha2Pads sha512Code Spec.sha512P where
  small := by decide
  word_rt' bs h := by
    have h4 : bs.length = 8 := h
    have e : Spec.sha512P.toNat (Spec.sha512P.ofNat (Spec.beNat bs)) = Spec.beNat bs := by
      show (UInt64.ofNat _).toNat = _
      rw [UInt64.toNat_ofNat', Nat.mod_eq_of_lt]
      have := memNat_lt bs.reverse
      rw [List.length_reverse, h4] at this
      rw [beNat_eq]; exact this
    rw [e, ← h, beBytes_beNat]
  xor_bytes x y := by
    show Spec.beBytes 8 (x ^^^ y).toNat = _
    rw [UInt64.toNat_xor, beBytes_xor]; rfl
  xor_opad x := by
    show x ^^^ _ ^^^ _ = x
    rw [UInt64.xor_assoc, UInt64.xor_self, UInt64.xor_zero]
  opad := by decide
  ipad := by decide
  zero := by decide
  g8 := by decide
  g15 := by decide

namespace Sha2Code
variable {W BC : Type} [Add W] [OfNat W 0] [Inhabited W] {P : Sha2Code W BC} {S : Spec.Sha2 W}
variable {cnt : BC → Nat → Prop}

theorem cut32_eq (l : Bytes) (h : l.length < 2 ^ 32) : cut32 l = l := by
  rw [cut32, Nat.mod_eq_of_lt (show l.length < 4294967296 from h), List.take_length]

/-- The padded key of RFC 2104. -/
def padKey (S : Spec.Sha2 W) (key : Bytes) : Bytes :=
  let k0 := if key.length > S.blockBytes then S.hash key else key
  k0 ++ zeros (S.blockBytes - k0.length)

theorem length_padKey (S : Spec.Sha2 W) (key : Bytes) : (padKey S key).length = S.blockBytes := by
  unfold padKey
  rw [List.length_append, length_zeros]
  have : (if key.length > S.blockBytes then S.hash key else key).length ≤ S.blockBytes := by
    split_ifs
    · rw [length_hash]; unfold Spec.Sha2.blockBytes; omega
    · omega
  omega

theorem put_zeros (n : Nat) (d : Bytes) : put (zeros n) 0 d = d ++ zeros (n - d.length) := by
  simp [put, zeros, List.drop_replicate]

theorem keyBlock_eq (ok : Sha2Ok P S) (ct : Sha2Count P S cnt) (key : Bytes) (h : key.length < 2 ^ 61) :
    P.keyBlock key = padKey S key := by
  unfold keyBlock padKey
  rw [blockLen_eq ok]
  split_ifs with hk
  · rw [put_zeros, raw_spec ok ct key h]
  · rw [put_zeros]

theorem hmac_eq (S : Spec.Sha2 W) (key m : Bytes) :
    Spec.hmac S.hash S.blockBytes key m
      = S.hash ((padKey S key).map (· ^^^ 0x5c) ++ S.hash ((padKey S key).map (· ^^^ 0x36) ++ m)) := rfl

theorem hmacFold (pieces : List Bytes) : ∀ (h : HmacCtx W BC), (∀ p ∈ pieces, p.length < 2 ^ 32) →
    pieces.foldl P.hmacUpdate h = { h with ctx := pieces.foldl P.update h.ctx } := by
  induction pieces with
  | nil => intro h _; rfl
  | cons p ps ih =>
    intro h hp
    rw [List.foldl_cons, List.foldl_cons, ih _ (fun q hq => hp q (by simp [hq]))]
    simp only [hmacUpdate, cut32_eq p (hp p (by simp))]

theorem hmac_spec (ok : Sha2Ok P S) (ct : Sha2Count P S cnt) (pd : Sha2Pads P S) (key : Bytes)
    (pieces : List Bytes) (hk : key.length < 2 ^ 32) (hp : ∀ p ∈ pieces, p.length < 2 ^ 32)
    (hl : pieces.flatten.length < 2 ^ 60) :
    P.hmacFinal (pieces.foldl P.hmacUpdate (P.hmacInit key))
      = Spec.hmac S.hash S.blockBytes key pieces.flatten := by
  have hw := pd.small
  have hB : S.blockBytes ≤ 128 := by unfold Spec.Sha2.blockBytes; omega
  rw [hmacFold _ _ hp, hmac_eq]
  simp only [hmacFinal, hmacInit, cut32_eq key hk, keyBlock_eq ok ct key (by omega)]
  have hkl := length_padKey S key
  have li : ((padKey S key).map (· ^^^ 0x36)).length = S.blockBytes := by rw [List.length_map, hkl]
  have lo : ((padKey S key).map (· ^^^ 0x5c)).length = S.blockBytes := by rw [List.length_map, hkl]
  have r1 := rep_update ok ct _ [] ((padKey S key).map (· ^^^ 0x36)) (rep_init ok ct)
    (by rw [li, List.length_nil]; omega)
  rw [List.nil_append] at r1
  have r2 := rep_updates ok ct pieces _ _ r1 (by rw [li]; omega)
  have e2 := final_spec ok ct _ _ r2 (by rw [List.length_append, li]; omega)
  rw [e2]
  have q1 := rep_update ok ct _ [] ((padKey S key).map (· ^^^ 0x5c)) (rep_init ok ct)
    (by rw [lo, List.length_nil]; omega)
  rw [List.nil_append] at q1
  have q2 := rep_update ok ct _ _ (S.hash ((padKey S key).map (· ^^^ 0x36) ++ pieces.flatten)) q1
    (by rw [lo, length_hash]; omega)
  exact final_spec ok ct _ _ q2 (by rw [List.length_append, lo, length_hash]; omega)

theorem hmac_once (ok : Sha2Ok P S) (ct : Sha2Count P S cnt) (pd : Sha2Pads P S) (key m : Bytes)
    (hk : key.length < 2 ^ 32) (hm : m.length < 2 ^ 32) :
    P.hmac key m = Spec.hmac S.hash S.blockBytes key m := by
  have := hmac_spec ok ct pd key [m] hk (by simpa using hm) (by simp; omega)
  simpa [hmac] using this

/-! ### words and bytes -/

/-- Bytes of some words. -/
def flat (S : Spec.Sha2 W) (l : List W) : Bytes := l.flatMap fun w => Spec.beBytes S.wordBytes (S.toNat w)

theorem flat_cons (w : W) (l : List W) :
    flat S (w :: l) = Spec.beBytes S.wordBytes (S.toNat w) ++ flat S l := by simp [flat]

theorem flat_append (l l' : List W) : flat S (l ++ l') = flat S l ++ flat S l' := by simp [flat]

theorem length_flat (l : List W) : (flat S l).length = l.length * S.wordBytes := by
  induction l with
  | nil => simp [flat]
  | cons w l ih => rw [flat_cons, List.length_append, Spec.length_beBytes, ih, List.length_cons, Nat.succ_mul]; omega

theorem words_flat (ok : Sha2Ok P S) (l : List W) : S.words (flat S l) = l := by
  induction l with
  | nil => simp [flat, Spec.Sha2.words, Spec.chunks_nil]
  | cons w l ih =>
    rw [flat_cons, words_append ok.wpos 1 _ _ (by rw [Spec.length_beBytes]; omega), words_word ok, ih]; rfl

theorem flat_words (ok : Sha2Ok P S) (pd : Sha2Pads P S) (n : Nat) : ∀ bs : Bytes,
    bs.length = n * S.wordBytes → flat S (S.words bs) = bs := by
  induction n with
  | zero =>
    intro bs h
    have : bs = [] := List.length_eq_zero_iff.mp (by omega)
    subst this
    simp [flat, Spec.Sha2.words, Spec.chunks_nil]
  | succ n ih =>
    intro bs h
    rw [Nat.succ_mul] at h
    have ht : (bs.take S.wordBytes).length = S.wordBytes := by rw [List.length_take]; omega
    conv_lhs => rw [← List.take_append_drop S.wordBytes bs]
    rw [words_append ok.wpos 1 _ _ (by omega), flat_append,
      ih (bs.drop S.wordBytes) (by rw [List.length_drop]; omega)]
    have : S.words (bs.take S.wordBytes) = [S.ofNat (Spec.beNat (bs.take S.wordBytes))] := by
      unfold Spec.Sha2.words
      rw [Spec.chunks_one _ ok.wpos _ ht]; rfl
    rw [this]
    simp only [flat, List.flatMap_cons, List.flatMap_nil, List.append_nil]
    rw [pd.word_rt' _ ht, List.take_append_drop]

theorem xorBytes_append (a b c d : Bytes) (h : a.length = c.length) :
    Spec.xorBytes (a ++ b) (c ++ d) = Spec.xorBytes a c ++ Spec.xorBytes b d := by
  unfold Spec.xorBytes
  rw [List.zipWith_append h]

theorem xorBytes_replicate (n : Nat) (b : UInt8) : ∀ l : Bytes, l.length = n →
    Spec.xorBytes l (List.replicate n b) = l.map (· ^^^ b) := by
  induction n with
  | zero => intro l h; have := List.length_eq_zero_iff.mp h; subst this; rfl
  | succ n ih =>
    intro l h
    match l, h with
    | a :: l, h =>
      have := ih l (by simpa using h)
      simp only [Spec.xorBytes] at this
      simp [Spec.xorBytes, List.replicate_succ, this]

theorem flat_zipWith (pd : Sha2Pads P S) : ∀ a b : List W, a.length = b.length →
    flat S (List.zipWith P.xor a b) = Spec.xorBytes (flat S a) (flat S b) := by
  intro a
  induction a with
  | nil => intro b _; simp [flat, Spec.xorBytes]
  | cons x a ih =>
    intro b h
    match b, h with
    | y :: b, h =>
      rw [List.zipWith_cons_cons, flat_cons, flat_cons, flat_cons,
        xorBytes_append _ _ _ _ (by rw [Spec.length_beBytes, Spec.length_beBytes]), pd.xor_bytes,
        ih b (by simpa using h)]

theorem flat_map_xor (w : W) (b : UInt8) (pd : Sha2Pads P S)
    (hw : Spec.beBytes S.wordBytes (S.toNat w) = List.replicate S.wordBytes b) (l : List W) :
    flat S (l.map fun x => P.xor x w) = (flat S l).map (· ^^^ b) := by
  induction l with
  | nil => simp [flat]
  | cons x l ih =>
    rw [List.map_cons, flat_cons, flat_cons, List.map_append, ih, pd.xor_bytes, hw,
      xorBytes_replicate _ _ _ (Spec.length_beBytes _ _)]

theorem words_map_xor (ok : Sha2Ok P S) (pd : Sha2Pads P S) (w : W) (b : UInt8)
    (hw : Spec.beBytes S.wordBytes (S.toNat w) = List.replicate S.wordBytes b) (n : Nat) (bs : Bytes)
    (h : bs.length = n * S.wordBytes) :
    S.words (bs.map (· ^^^ b)) = (S.words bs).map fun x => P.xor x w := by
  conv_lhs => rw [← flat_words ok pd n bs h, ← flat_map_xor w b pd hw]
  rw [words_flat ok]

theorem prepare_spec (ok : Sha2Ok P S) (ct : Sha2Count P S cnt) (pd : Sha2Pads P S) (key : Bytes)
    (hk : key.length < 2 ^ 32) :
    P.hmacPrepare key = ((S.chain S.h0 ((padKey S key).map (· ^^^ 0x5c))).toList,
      (S.chain S.h0 ((padKey S key).map (· ^^^ 0x36))).toList) := by
  have hkl := length_padKey S key
  have h16 : (padKey S key).length = 16 * S.wordBytes := hkl
  unfold hmacPrepare
  rw [cut32_eq key hk, keyBlock_eq ok ct key (by omega)]
  have ho : (P.hostWords 16 (padKey S key)).map (fun w => P.xor (P.reverse w) P.opad)
      = S.words ((padKey S key).map (· ^^^ 0x5c)) := by
    rw [words_map_xor ok pd P.opad 0x5c pd.opad 16 _ h16]
    have := hostWords_reverse ok 16 (padKey S key) (by omega)
    rw [← h16, List.take_length] at this
    rw [← this, List.map_map]; rfl
  have hi : (S.words ((padKey S key).map (· ^^^ 0x5c))).map (fun w => P.xor (P.xor w P.opad) P.ipad)
      = S.words ((padKey S key).map (· ^^^ 0x36)) := by
    rw [words_map_xor ok pd P.opad 0x5c pd.opad 16 _ h16, words_map_xor ok pd P.ipad 0x36 pd.ipad 16 _ h16,
      List.map_map]
    apply List.map_congr_left
    intro w _
    simp only [Function.comp, pd.xor_opad]
  simp only
  rw [ho, hi, ok.iv]
  rw [transform_eq ok _ _ (length_words ok.wpos 16 _ (by rw [List.length_map, h16])),
    transform_eq ok _ _ (length_words ok.wpos 16 _ (by rw [List.length_map, h16])),
    chain_one ok.wpos _ _ (by rw [List.length_map, hkl]), chain_one ok.wpos _ _ (by rw [List.length_map, hkl])]

/-- Final chaining value. -/
def hregs (S : Spec.Sha2 W) (m : Bytes) : Spec.Regs W := S.chain S.h0 (S.pad m)

theorem flat_toList (H : Spec.Regs W) : flat S H.toList = S.out H := rfl

theorem flat_replicate (pd : Sha2Pads P S) (n : Nat) :
    flat S (List.replicate n 0) = zeros (n * S.wordBytes) := by
  induction n with
  | zero => simp [flat, zeros]
  | succ n ih => rw [List.replicate_succ, flat_cons, ih, pd.zero, Nat.succ_mul, Nat.add_comm, zeros_add]

/-- The eight constant words after a digest are the padding of a block and a digest. -/
theorem digest_block (ok : Sha2Ok P S) (pd : Sha2Pads P S) (kp d : Bytes)
    (hk : kp.length = S.blockBytes) (hd : d.length = 8 * S.wordBytes) :
    S.pad (kp ++ d) = kp ++ (d ++ flat S (P.g8 :: List.replicate 6 0 ++ [P.g15])) := by
  have hw := ok.wpos
  have hB : S.blockBytes = 16 * S.wordBytes := rfl
  have hlen : (kp ++ d).length = 24 * S.wordBytes := by rw [List.length_append, hk, hd, hB]; omega
  unfold Spec.Sha2.pad
  simp only
  rw [hlen, pad_zeros S.blockBytes S.wordBytes _ 1 (8 * S.wordBytes) hB (by omega) (by omega),
    if_neg (by omega)]
  rw [List.append_assoc, List.append_assoc, List.append_assoc]
  congr 2
  rw [show P.g8 :: List.replicate 6 0 ++ [P.g15] = P.g8 :: (List.replicate 6 0 ++ [P.g15]) from rfl,
    flat_cons, flat_append, flat_replicate pd, ← pd.g15, pd.g8]
  rw [List.append_assoc]
  congr 1
  rw [← List.append_assoc, ← List.append_assoc, ← zeros_add, ← zeros_add]
  rw [show S.blockBytes - 2 * S.wordBytes - (8 * S.wordBytes + 1) + S.wordBytes
    = S.wordBytes - 1 + 6 * S.wordBytes by omega]
  simp [flat]

/-- One transform of a digest under a prepared key half. -/
theorem transform_digest (ok : Sha2Ok P S) (pd : Sha2Pads P S) (kp : Bytes) (H : Spec.Regs W)
    (hk : kp.length = S.blockBytes) :
    P.transform (S.chain S.h0 kp).toList (H.toList ++ (P.g8 :: List.replicate 6 0 ++ [P.g15]))
      = (hregs S (kp ++ S.out H)).toList := by
  have hd : (S.out H).length = 8 * S.wordBytes := by rw [← flat_toList, length_flat]; rfl
  rw [transform_eq ok _ _ (by simp [Spec.Regs.toList])]
  have e : H.toList ++ (P.g8 :: List.replicate 6 0 ++ [P.g15])
      = S.words (S.out H ++ flat S (P.g8 :: List.replicate 6 0 ++ [P.g15])) := by
    rw [← flat_toList, ← flat_append, words_flat ok]
  have hl : (S.out H ++ flat S (P.g8 :: List.replicate 6 0 ++ [P.g15])).length = S.blockBytes := by
    rw [List.length_append, hd, length_flat, Spec.Sha2.blockBytes]; simp; omega
  rw [e, ← chain_one ok.wpos _ _ hl, ← chain_append ok.wpos _ 1 _ _ (by omega),
    ← digest_block ok pd kp _ hk hd]
  rfl

/-! ### PBKDF2 -/

/-- Chaining value whose bytes are the tag. -/
def tagRegs (S : Spec.Sha2 W) (key m : Bytes) : Spec.Regs W :=
  hregs S ((padKey S key).map (· ^^^ 0x5c) ++ S.hash ((padKey S key).map (· ^^^ 0x36) ++ m))

theorem out_tagRegs (S : Spec.Sha2 W) (key m : Bytes) :
    S.out (tagRegs S key m) = Spec.hmac S.hash S.blockBytes key m := rfl

/-- State after `n + 1` iterations. -/
structure PbkdfInv (P : Sha2Code W BC) (S : Spec.Sha2 W) (pass salt : Bytes) (nr n : Nat)
    (c : PbkdfCtx W) : Prop where
  odig : c.odig = (S.chain S.h0 ((padKey S pass).map (· ^^^ 0x5c))).toList
  idig : c.idig = (S.chain S.h0 ((padKey S pass).map (· ^^^ 0x36))).toList
  g : ∃ H : Spec.Regs W, c.g = H.toList ++ (P.g8 :: List.replicate 6 0 ++ [P.g15])
    ∧ S.out H = Spec.pbkdf2U (Spec.hmac S.hash S.blockBytes) pass salt nr n
  flen : c.f.length = 8
  f : flat S c.f = Spec.pbkdf2F (Spec.hmac S.hash S.blockBytes) pass salt nr n

theorem pass_inv (ok : Sha2Ok P S) (pd : Sha2Pads P S) (pass salt : Bytes) (nr n : Nat)
    (c : PbkdfCtx W) (h : PbkdfInv P S pass salt nr n c) :
    PbkdfInv P S pass salt nr (n + 1) (P.pbkdfPass c) ∧ (P.pbkdfPass c).first = c.first := by
  obtain ⟨ho, hi, ⟨H, hg, hu⟩, hfl, hf⟩ := h
  have hkl := length_padKey S pass
  have hH : H.toList.length = 8 := rfl
  have hd : c.g.drop 8 = P.g8 :: List.replicate 6 0 ++ [P.g15] := by
    rw [hg, List.drop_left' hH]
  have e1 := transform_digest ok pd ((padKey S pass).map (· ^^^ 0x36)) H (by rw [List.length_map, hkl])
  have e2 := transform_digest ok pd ((padKey S pass).map (· ^^^ 0x5c))
    (hregs S ((padKey S pass).map (· ^^^ 0x36) ++ S.out H)) (by rw [List.length_map, hkl])
  have hd2 : ∀ R : Spec.Regs W, (R.toList ++ (P.g8 :: List.replicate 6 0 ++ [P.g15])).drop 8
      = P.g8 :: List.replicate 6 0 ++ [P.g15] := fun R => List.drop_left' rfl
  have htag : S.out (tagRegs S pass (S.out H))
      = Spec.pbkdf2U (Spec.hmac S.hash S.blockBytes) pass salt nr (n + 1) := by
    rw [out_tagRegs, hu]; rfl
  have eg : (P.pbkdfPass c).g = (tagRegs S pass (S.out H)).toList
      ++ (P.g8 :: List.replicate 6 0 ++ [P.g15]) := by
    simp only [pbkdfPass]
    rw [hd, hi, ho, hg, e1, hd2, e2]
    rfl
  have ef : (P.pbkdfPass c).f = List.zipWith P.xor c.f (P.pbkdfPass c).g := rfl
  have ef' : (P.pbkdfPass c).f = List.zipWith P.xor c.f (tagRegs S pass (S.out H)).toList := by
    rw [ef, eg]
    conv_lhs => rw [← List.append_nil c.f]
    rw [List.zipWith_append (by rw [hfl]; rfl)]
    simp
  refine ⟨⟨ho, hi, ⟨_, eg, htag⟩, ?_, ?_⟩, rfl⟩
  · rw [ef', List.length_zipWith, hfl]; rfl
  · rw [ef', flat_zipWith pd _ _ (by rw [hfl]; rfl), hf, flat_toList, htag]; rfl

theorem passes_inv (ok : Sha2Ok P S) (pd : Sha2Pads P S) (pass salt : Bytes) (nr : Nat) (l : List Nat) :
    ∀ (n : Nat) (c : PbkdfCtx W), PbkdfInv P S pass salt nr n c →
    PbkdfInv P S pass salt nr (n + l.length) (l.foldl (fun c _ => P.pbkdfPass c) c) := by
  induction l with
  | nil => intro n c h; exact h
  | cons x l ih =>
    intro n c h
    rw [List.foldl_cons, List.length_cons, show n + (l.length + 1) = n + 1 + l.length by omega]
    exact ih _ _ (pass_inv ok pd pass salt nr n c h).1

theorem update_inv (ok : Sha2Ok P S) (pd : Sha2Pads P S) (pass salt : Bytes) (nr n it : Nat)
    (c : PbkdfCtx W) (h : PbkdfInv P S pass salt nr n c) :
    PbkdfInv P S pass salt nr (n + (it - c.first)) (P.pbkdfUpdate c it) ∧ (P.pbkdfUpdate c it).first = 0 := by
  have := passes_inv ok pd pass salt nr (List.range' c.first (it - c.first)) n c h
  rw [List.length_range'] at this
  exact ⟨⟨this.odig, this.idig, this.g, this.flen, this.f⟩, rfl⟩

theorem updates_inv (ok : Sha2Ok P S) (pd : Sha2Pads P S) (pass salt : Bytes) (nr : Nat) (its : List Nat) :
    ∀ (n : Nat) (c : PbkdfCtx W), PbkdfInv P S pass salt nr n c → c.first = 0 →
    PbkdfInv P S pass salt nr (n + its.sum) (its.foldl P.pbkdfUpdate c) := by
  induction its with
  | nil => intro n c h _; exact h
  | cons i its ih =>
    intro n c h h0
    have := update_inv ok pd pass salt nr n i c h
    rw [h0, Nat.sub_zero] at this
    have := ih _ _ this.1 this.2
    rw [List.foldl_cons, List.sum_cons, ← Nat.add_assoc]
    exact this

theorem be4_eq (n : UInt32) : [(n >>> 24).toUInt8, (n >>> 16).toUInt8, (n >>> 8).toUInt8, n.toUInt8]
    = Spec.beBytes 4 n.toNat := by
  have h := toMem32 n
  rw [Spec.beBytes, ← h]; rfl

theorem beBytes_mod (k n : Nat) : Spec.beBytes k (n % 256 ^ k) = Spec.beBytes k n := by
  unfold Spec.beBytes; rw [leBytes_mod]

theorem init_inv (ok : Sha2Ok P S) (ct : Sha2Count P S cnt) (pd : Sha2Pads P S)
    (junk pass salt : Bytes) (nr : Nat) (hj : junk.length = S.blockBytes)
    (hp : pass.length < 2 ^ 32) (hs : salt.length < 2 ^ 60) :
    PbkdfInv P S pass salt nr 0 (P.pbkdfInit junk pass salt (UInt32.ofNat nr))
      ∧ (P.pbkdfInit junk pass salt (UInt32.ofNat nr)).first = 1 := by
  have hw := pd.small
  have hB : S.blockBytes ≤ 128 := by unfold Spec.Sha2.blockBytes; omega
  have hkl := length_padKey S pass
  have li : ((padKey S pass).map (· ^^^ 0x36)).length = S.blockBytes := by rw [List.length_map, hkl]
  have lo : ((padKey S pass).map (· ^^^ 0x5c)).length = S.blockBytes := by rw [List.length_map, hkl]
  have hBp : 0 < S.blockBytes := by have := ok.wpos; unfold Spec.Sha2.blockBytes; omega
  have r0 : Rep S cnt (⟨(S.chain S.h0 ((padKey S pass).map (· ^^^ 0x36))).toList,
      P.addBits P.zeroBits (shl3 P.blockLen), junk⟩ : Sha2Ctx W BC)
      ((padKey S pass).map (· ^^^ 0x36)) := by
    refine ⟨1, _, [], (List.append_nil _).symm, by rw [li]; omega, hBp, rfl, ?_, hj, rfl⟩
    rw [li, blockLen_eq ok]
    have := ct.add P.zeroBits 0 S.blockBytes ct.zero (by omega)
    rwa [Nat.zero_add] at this
  have r1 := rep_update ok ct _ _ salt r0 (by rw [li]; omega)
  have hb4 : Spec.beBytes 4 (UInt32.ofNat nr).toNat = Spec.beBytes 4 nr := by
    rw [UInt32.toNat_ofNat']; exact beBytes_mod 4 nr
  have r2 := rep_update ok ct _ _ (Spec.beBytes 4 nr) r1
    (by rw [List.length_append, li, Spec.length_beBytes]; omega)
  have e := final_spec ok ct _ _ r2
    (by rw [List.length_append, List.length_append, li, Spec.length_beBytes]; omega)
  rw [List.append_assoc] at e
  unfold pbkdfInit
  rw [prepare_spec ok ct pd pass hp]
  simp only [be4_eq, hb4, e]
  have hh : (P.hostWords 8 (S.hash ((padKey S pass).map (· ^^^ 0x36) ++ (salt ++ Spec.beBytes 4 nr)))).map P.reverse
      = (hregs S ((padKey S pass).map (· ^^^ 0x36) ++ (salt ++ Spec.beBytes 4 nr))).toList := by
    have hl := length_hash (S := S) ((padKey S pass).map (· ^^^ 0x36) ++ (salt ++ Spec.beBytes 4 nr))
    have := hostWords_reverse ok 8 _ (Nat.le_of_eq hl.symm)
    rw [this, ← hl, List.take_length]
    show S.words (S.out (hregs S _)) = _
    rw [← flat_toList, words_flat ok]
  rw [hh, transform_digest ok pd _ _ lo]
  have ht : (hregs S ((padKey S pass).map (· ^^^ 0x5c) ++ S.out (hregs S
      ((padKey S pass).map (· ^^^ 0x36) ++ (salt ++ Spec.beBytes 4 nr))))).toList
      = (tagRegs S pass (salt ++ Spec.beBytes 4 nr)).toList := rfl
  rw [ht]
  refine ⟨⟨rfl, rfl, ⟨_, rfl, out_tagRegs _ _ _⟩, ?_, ?_⟩, trivial⟩
  · simp [Spec.Regs.toList]
  · simp only
    rw [List.take_left' (by rfl), flat_toList, out_tagRegs]; rfl

theorem pbkdfFinal_eq (ok : Sha2Ok P S) (c : PbkdfCtx W) : P.pbkdfFinal c = flat S c.f := by
  simp only [pbkdfFinal, memWords, flat, List.flatMap_map, ok.save]

/-- One block, with the iterations given in any pieces. -/
theorem pbkdf_block (ok : Sha2Ok P S) (ct : Sha2Count P S cnt) (pd : Sha2Pads P S)
    (junk pass salt : Bytes) (nr it : Nat) (its : List Nat) (hj : junk.length = S.blockBytes)
    (hp : pass.length < 2 ^ 32) (hs : salt.length < 2 ^ 60) :
    P.pbkdfFinal ((it :: its).foldl P.pbkdfUpdate (P.pbkdfInit junk pass salt (UInt32.ofNat nr)))
      = Spec.pbkdf2F (Spec.hmac S.hash S.blockBytes) pass salt nr ((it - 1) + its.sum) := by
  obtain ⟨h0, h1⟩ := init_inv ok ct pd junk pass salt nr hj hp hs
  have h2 := update_inv ok pd pass salt nr 0 it _ h0
  rw [h1, Nat.zero_add] at h2
  have h3 := updates_inv ok pd pass salt nr its _ _ h2.1 h2.2
  rw [pbkdfFinal_eq ok, List.foldl_cons, h3.f]

theorem flatMap_congr' {l : List Nat} {f g : Nat → Bytes} (h : ∀ i ∈ l, f i = g i) :
    l.flatMap f = l.flatMap g := by
  rw [List.flatMap_def, List.flatMap_def, List.map_congr_left h]

/-- Whole blocks and a cut last one. -/
theorem flatMap_cut (h k : Nat) (hh : 0 < h) (f : Nat → Bytes) (hf : ∀ i, (f i).length = h) :
    ((List.range ((k + h - 1) / h)).flatMap f).take k =
      (List.range (if k % h ≠ 0 then k / h + 1 else k / h)).flatMap fun i =>
        if i + 1 < (if k % h ≠ 0 then k / h + 1 else k / h) then f i
        else (f i).take (if k % h ≠ 0 then k % h else h) := by
  have hlen : ∀ n, ((List.range n).flatMap f).length = n * h := by
    intro n
    induction n with
    | zero => simp
    | succ n ih => rw [List.range_succ, List.flatMap_append, List.length_append, ih]; simp [hf, Nat.succ_mul]
  have hk := Nat.div_add_mod k h
  have hm := Nat.mod_lt k hh
  have hcong : ∀ n F, n < F → ((List.range n).flatMap fun i => if i + 1 < F then f i
      else (f i).take (if k % h ≠ 0 then k % h else h)) = (List.range n).flatMap f := by
    intro n F hF
    apply flatMap_congr'
    intro i hi
    rw [if_pos (by have := List.mem_range.mp hi; omega)]
  by_cases hr : k % h = 0
  · have hq : (k + h - 1) / h = k / h := by
      rw [Nat.div_eq_iff hh, Nat.mul_comm] ; omega
    rw [hq]
    simp only [ne_eq, hr, not_true_eq_false, if_false]
    have e1 : ((List.range (k / h)).flatMap f).take k = (List.range (k / h)).flatMap f := by
      apply List.take_of_length_le
      rw [hlen, Nat.mul_comm]; omega
    rw [e1]
    apply flatMap_congr'
    intro i _
    split_ifs
    · rfl
    · rw [List.take_of_length_le (Nat.le_of_eq (hf i))]
  · have hq : (k + h - 1) / h = k / h + 1 := by
      rw [Nat.div_eq_iff hh, Nat.add_mul, Nat.mul_comm (k / h)]
      omega
    rw [hq]
    simp only [ne_eq, hr, not_false_eq_true, if_true]
    rw [List.range_succ, List.flatMap_append, List.flatMap_append]
    have := hcong (k / h) (k / h + 1) (by omega)
    simp only [ne_eq, hr, not_false_eq_true, if_true] at this
    rw [this]
    simp only [List.flatMap_cons, List.flatMap_nil, List.append_nil, Nat.lt_irrefl, if_false]
    rw [List.take_append, hlen, List.take_of_length_le (by rw [hlen, Nat.mul_comm]; omega)]
    congr 2
    rw [Nat.mul_comm]; omega

theorem length_pbkdf2F (S : Spec.Sha2 W) (pass salt : Bytes) (nr n : Nat) :
    (Spec.pbkdf2F (Spec.hmac S.hash S.blockBytes) pass salt nr n).length = 8 * S.wordBytes := by
  have hU : ∀ n, (Spec.pbkdf2U (Spec.hmac S.hash S.blockBytes) pass salt nr n).length = 8 * S.wordBytes := by
    intro n
    cases n <;> exact length_hash _
  induction n with
  | zero => exact hU 0
  | succ n ih =>
    rw [Spec.pbkdf2F, Spec.xorBytes, List.length_zipWith, ih, hU]; omega

theorem pbkdf2_spec (ok : Sha2Ok P S) (ct : Sha2Count P S cnt) (pd : Sha2Pads P S)
    (junk pass salt : Bytes) (it keylen : Nat) (hj : junk.length = S.blockBytes)
    (hp : pass.length < 2 ^ 32) (hs : salt.length < 2 ^ 60) :
    P.pbkdf2 junk pass salt it keylen
      = Spec.pbkdf2 (Spec.hmac S.hash S.blockBytes) (8 * S.wordBytes) pass salt it keylen := by
  have hw := ok.wpos
  have hd : P.digestLen = 8 * S.wordBytes := by simp [digestLen, ok.wlen]
  unfold pbkdf2 Spec.pbkdf2
  rw [hd, flatMap_cut (8 * S.wordBytes) keylen (by omega) _ (fun i => length_pbkdf2F S pass salt (i + 1) (it - 1))]
  apply flatMap_congr'
  intro i _
  have := pbkdf_block ok ct pd junk pass salt (i + 1) it [] hj hp hs
  simp only [List.foldl_cons, List.foldl_nil, List.sum_nil, Nat.add_zero] at this
  rw [this]

end Sha2Code
end UB
