import Verif.Lemmas.Hmac
import Verif.Lemmas.Ripemd
import Verif.Spec.Rfc6979

/-
C43 hashing in pieces, C44 HMAC, C45 PBKDF2, C46 deterministic nonces.
-/

namespace UB

theorem foldl_sha256 (pieces : List Bytes) (c : Sha2Ctx UInt32 UInt64) :
    pieces.foldl HashObj.write (.sha256 c) = .sha256 (pieces.foldl sha256Code.update c) := by
  induction pieces generalizing c with
  | nil => rfl
  | cons p ps ih => rw [List.foldl_cons, List.foldl_cons, ← ih]; rfl

theorem foldl_hash160 (pieces : List Bytes) (c : Sha2Ctx UInt32 UInt64) :
    pieces.foldl HashObj.write (.hash160 c) = .hash160 (pieces.foldl sha256Code.update c) := by
  induction pieces generalizing c with
  | nil => rfl
  | cons p ps ih => rw [List.foldl_cons, List.foldl_cons, ← ih]; rfl

theorem foldl_double (pieces : List Bytes) (c : Sha2Ctx UInt32 UInt64) :
    pieces.foldl HashObj.write (.double c) = .double (pieces.foldl sha256Code.update c) := by
  induction pieces generalizing c with
  | nil => rfl
  | cons p ps ih => rw [List.foldl_cons, List.foldl_cons, ← ih]; rfl

theorem foldl_sha512 (pieces : List Bytes) (c : Sha2Ctx UInt64 (UInt64 × UInt64)) :
    pieces.foldl HashObj.write (.sha512 c) = .sha512 (pieces.foldl sha512Code.update c) := by
  induction pieces generalizing c with
  | nil => rfl
  | cons p ps ih => rw [List.foldl_cons, List.foldl_cons, ← ih]; rfl

theorem foldl_rmd (pieces : List Bytes) (c : Rmd160.Ctx) :
    pieces.foldl HashObj.write (.rmd c) = .rmd (pieces.foldl Rmd160.update c) := by
  induction pieces generalizing c with
  | nil => rfl
  | cons p ps ih => rw [List.foldl_cons, List.foldl_cons, ← ih]; rfl

theorem rmd160_eq (m : Bytes) (h : m.length < 2 ^ 32) : rmd160 m = Spec.ripemd160 m := by
  have r := Rmd160.rep_update _ [] m Rmd160.rep_init h (by simp only [List.length_nil]; omega)
  exact Rmd160.final_spec _ _ r (by omega)

theorem length_sha256 (m : Bytes) : (Spec.sha256 m).length = 32 := Sha2Code.length_hash (S := Spec.sha256P) m
theorem length_sha512 (m : Bytes) : (Spec.sha512 m).length = 64 := Sha2Code.length_hash (S := Spec.sha512P) m

/-! ### C43 -/

/-- SHA256: any pieces, in any number and of any sizes, give the SHA-256 of their
concatenation (SHA-256 is defined for messages below 2^64 bits). -/
theorem C43_sha256_pieces (pieces : List Bytes) (h : pieces.flatten.length < 2 ^ 61) :
    (pieces.foldl HashObj.write newSHA256).fin = Spec.sha256 pieces.flatten := by
  have := Sha2Code.rep_updates sha256Ok sha256Count pieces _ [] (Sha2Code.rep_init sha256Ok sha256Count)
    (by simpa using h)
  rw [newSHA256, foldl_sha256]
  exact Sha2Code.final_spec sha256Ok sha256Count _ _ this (by simpa using h)

example : ([[0x61], [], [0x62, 0x63]].foldl HashObj.write newSHA256).fin = Spec.sha256 [0x61, 0x62, 0x63] :=
  C43_sha256_pieces _ (by decide)

/-- SHA512: any pieces. -/
theorem C43_sha512_pieces (pieces : List Bytes) (h : pieces.flatten.length < 2 ^ 61) :
    (pieces.foldl HashObj.write newSHA512).fin = Spec.sha512 pieces.flatten := by
  have := Sha2Code.rep_updates sha512Ok sha512Count pieces _ [] (Sha2Code.rep_init sha512Ok sha512Count)
    (by simpa using h)
  rw [newSHA512, foldl_sha512]
  exact Sha2Code.final_spec sha512Ok sha512Count _ _ this (by simpa using h)

example : ([[0x61], [], [0x62, 0x63]].foldl HashObj.write newSHA512).fin = Spec.sha512 [0x61, 0x62, 0x63] :=
  C43_sha512_pieces _ (by decide)

/-- RMD160: any pieces of less than 4 GiB each.  Missing: longer pieces, for which the
claim is false (`C43_rmd160_long_piece`). -/
theorem C43_rmd160_pieces_partial (pieces : List Bytes) (h : pieces.flatten.length < 2 ^ 61)
    (hp : ∀ p ∈ pieces, p.length < 2 ^ 32) :
    (pieces.foldl HashObj.write newRMD160).fin = Spec.ripemd160 pieces.flatten := by
  have := Rmd160.rep_updates pieces _ [] Rmd160.rep_init hp (by simp only [List.length_nil]; omega)
  rw [newRMD160, foldl_rmd]
  exact Rmd160.final_spec _ _ this (by simpa using h)

example : ([[0x61], [], [0x62, 0x63]].foldl HashObj.write newRMD160).fin = Spec.ripemd160 [0x61, 0x62, 0x63] :=
  C43_rmd160_pieces_partial _ (by decide) (by decide)

/-- The length of a RIPEMD-160 piece is taken modulo 2^32: 4 GiB of data hash like no data. -/
theorem C43_rmd160_long_piece (m : Bytes) (h : m.length = 2 ^ 32) : rmd160 m = Spec.ripemd160 [] := by
  have e : Rmd160.update Rmd160.init m = Rmd160.update Rmd160.init [] := by
    unfold Rmd160.update Sha2Code.cut32
    rw [h]; rfl
  rw [rmd160, e]
  exact rmd160_eq [] (by decide)

example : ∃ m : Bytes, m.length = 2 ^ 32 := ⟨zeros (2 ^ 32), length_zeros _⟩

/-- Hash160: RIPEMD-160 of SHA-256 of the pieces. -/
theorem C43_hash160_pieces (pieces : List Bytes) (h : pieces.flatten.length < 2 ^ 61) :
    (pieces.foldl HashObj.write newHash160).fin = Spec.hash160 pieces.flatten := by
  have := Sha2Code.rep_updates sha256Ok sha256Count pieces _ [] (Sha2Code.rep_init sha256Ok sha256Count)
    (by simpa using h)
  have e := Sha2Code.final_spec sha256Ok sha256Count _ _ this (by simpa using h)
  rw [List.nil_append] at e
  rw [newHash160, foldl_hash160, HashObj.fin, e]
  exact rmd160_eq _ (by have := length_sha256 pieces.flatten; unfold Spec.sha256 at this; rw [this]; decide)

example : ([[0x61], [], [0x62, 0x63]].foldl HashObj.write newHash160).fin = Spec.hash160 [0x61, 0x62, 0x63] :=
  C43_hash160_pieces _ (by decide)

/-- DoubleSha: SHA-256 of SHA-256 of the pieces. -/
theorem C43_doubleSha_pieces (pieces : List Bytes) (h : pieces.flatten.length < 2 ^ 61) :
    (pieces.foldl HashObj.write newDoubleSha).fin = Spec.hash256 pieces.flatten := by
  have := Sha2Code.rep_updates sha256Ok sha256Count pieces _ [] (Sha2Code.rep_init sha256Ok sha256Count)
    (by simpa using h)
  have e := Sha2Code.final_spec sha256Ok sha256Count _ _ this (by simpa using h)
  rw [List.nil_append] at e
  rw [newDoubleSha, foldl_double, HashObj.fin, e]
  exact Sha2Code.raw_spec sha256Ok sha256Count _
    (by have := length_sha256 pieces.flatten; unfold Spec.sha256 at this; rw [this]; decide)

example : ([[0x61], [], [0x62, 0x63]].foldl HashObj.write newDoubleSha).fin = Spec.hash256 [0x61, 0x62, 0x63] :=
  C43_doubleSha_pieces _ (by decide)

theorem sha256_eq (m : Bytes) (h : m.length < 2 ^ 61) : sha256 m = Spec.sha256 m :=
  Sha2Code.raw_spec sha256Ok sha256Count m h

/-- TaggedHash: the BIP-340 tagged hash of the pieces. -/
theorem C43_taggedHash_pieces (tag : Bytes) (pieces : List Bytes) (ht : tag.length < 2 ^ 61)
    (h : pieces.flatten.length < 2 ^ 60) :
    (pieces.foldl HashObj.write (newTaggedHash tag)).fin = Spec.taggedHash tag pieces.flatten := by
  have e : newTaggedHash tag = [Spec.sha256 tag, Spec.sha256 tag].foldl HashObj.write newSHA256 := by
    rw [newTaggedHash, sha256_eq tag ht]; rfl
  rw [e, ← List.foldl_append, C43_sha256_pieces]
  · simp [Spec.taggedHash]
  · rw [List.flatten_append, List.length_append]
    simp only [List.flatten_cons, List.flatten_nil, List.append_nil, List.length_append, length_sha256]
    omega

example : ([[0x61], [], [0x62, 0x63]].foldl HashObj.write (newTaggedHash [0x54])).fin
    = Spec.taggedHash [0x54] [0x61, 0x62, 0x63] :=
  C43_taggedHash_pieces _ _ (by decide) (by decide)

/-- The one-shot functions. -/
theorem C43_at_once (m : Bytes) (h : m.length < 2 ^ 60) :
    sha256 m = Spec.sha256 m ∧ sha512 m = Spec.sha512 m ∧ hash160 m = Spec.hash160 m
      ∧ doubleSha m = Spec.hash256 m := by
  have h1 : [m].flatten = m := by simp
  have h2 : [m].flatten.length < 2 ^ 61 := by rw [h1]; omega
  refine ⟨sha256_eq m (by omega), ?_, ?_, ?_⟩
  · have := C43_sha512_pieces [m] h2; rwa [h1] at this
  · have := C43_hash160_pieces [m] h2; rwa [h1] at this
  · have := C43_doubleSha_pieces [m] h2; rwa [h1] at this

theorem C43_taggedHash_at_once (tag m : Bytes) (ht : tag.length < 2 ^ 61) (h : m.length < 2 ^ 60) :
    taggedHash tag m = Spec.taggedHash tag m := by
  have h1 : [m].flatten = m := by simp
  have := C43_taggedHash_pieces tag [m] ht (by rw [h1]; exact h)
  rwa [h1] at this

theorem C43_rmd160_at_once_partial (m : Bytes) (h : m.length < 2 ^ 32) : rmd160 m = Spec.ripemd160 m :=
  rmd160_eq m h

/-- `write(uint8_t)` one byte at a time. -/
theorem C43_sha256_bytewise (m : Bytes) (h : m.length < 2 ^ 61) :
    (m.foldl HashObj.writeByte newSHA256).fin = Spec.sha256 m := by
  have e : ∀ o : HashObj, m.foldl HashObj.writeByte o = (m.map fun b => [b]).foldl HashObj.write o := by
    intro o; rw [List.foldl_map]; rfl
  have f : (m.map fun b => [b]).flatten = m := by
    clear h e
    induction m with
    | nil => rfl
    | cons b m ih => simp [ih]
  rw [e, C43_sha256_pieces _ (by rw [f]; exact h), f]

/-! ### C44 -/

/-- HMAC-SHA256 in any pieces, any key.  Key and pieces have 32 bit lengths. -/
theorem C44_hmac_sha256_pieces_partial (key : Bytes) (pieces : List Bytes) (hk : key.length < 2 ^ 32)
    (hp : ∀ p ∈ pieces, p.length < 2 ^ 32) (hl : pieces.flatten.length < 2 ^ 60) :
    sha256Code.hmacFinal (pieces.foldl sha256Code.hmacUpdate (sha256Code.hmacInit key))
      = Spec.hmacSha256 key pieces.flatten :=
  Sha2Code.hmac_spec sha256Ok sha256Count sha256Pads key pieces hk hp hl

theorem C44_hmac_sha512_pieces_partial (key : Bytes) (pieces : List Bytes) (hk : key.length < 2 ^ 32)
    (hp : ∀ p ∈ pieces, p.length < 2 ^ 32) (hl : pieces.flatten.length < 2 ^ 60) :
    sha512Code.hmacFinal (pieces.foldl sha512Code.hmacUpdate (sha512Code.hmacInit key))
      = Spec.hmacSha512 key pieces.flatten :=
  Sha2Code.hmac_spec sha512Ok sha512Count sha512Pads key pieces hk hp hl

theorem C44_hmac_sha256_partial (key m : Bytes) (hk : key.length < 2 ^ 32) (hm : m.length < 2 ^ 32) :
    sha256Hmac key m = Spec.hmacSha256 key m :=
  Sha2Code.hmac_once sha256Ok sha256Count sha256Pads key m hk hm

theorem C44_hmac_sha512_partial (key m : Bytes) (hk : key.length < 2 ^ 32) (hm : m.length < 2 ^ 32) :
    sha512Hmac key m = Spec.hmacSha512 key m :=
  Sha2Code.hmac_once sha512Ok sha512Count sha512Pads key m hk hm

example : sha512Hmac (List.replicate 200 7) [1, 2, 3] = Spec.hmacSha512 (List.replicate 200 7) [1, 2, 3] :=
  C44_hmac_sha512_partial _ _ (by rw [List.length_replicate]; decide) (by decide)

/-- Why the lengths are bounded: a 4 GiB message gets the tag of the empty one. -/
theorem C44_hmac_sha256_long_message (key m : Bytes) (hk : key.length < 2 ^ 32) (hm : m.length = 2 ^ 32) :
    sha256Hmac key m = Spec.hmacSha256 key [] := by
  have e : sha256Hmac key m = sha256Hmac key [] := by
    unfold sha256Hmac Sha2Code.hmac Sha2Code.hmacUpdate Sha2Code.cut32
    rw [hm]; rfl
  rw [e, C44_hmac_sha256_partial key [] hk (by decide)]

/-- The two prepared chaining values give the same tags as the plain computation:
`ubtc_hmac_sha512_prepare` followed by one block each way. -/
theorem C44_prepare_partial (key : Bytes) (H : Spec.Regs UInt64) (hk : key.length < 2 ^ 32) :
    let tail : List UInt64 := sha512Code.g8 :: List.replicate 6 0 ++ [sha512Code.g15]
    Sha2Code.flat Spec.sha512P (sha512Code.transform (sha512Code.hmacPrepare key).1
      (sha512Code.transform (sha512Code.hmacPrepare key).2 (H.toList ++ tail) ++ tail))
      = Spec.hmacSha512 key (Spec.sha512P.out H) := by
  intro tail
  have hkl := Sha2Code.length_padKey Spec.sha512P key
  rw [Sha2Code.prepare_spec sha512Ok sha512Count sha512Pads key hk]
  rw [Sha2Code.transform_digest sha512Ok sha512Pads _ _ (by rw [List.length_map, hkl]),
    Sha2Code.transform_digest sha512Ok sha512Pads _ _ (by rw [List.length_map, hkl])]
  rfl

/-! ### C45 -/

/-- PBKDF2-HMAC-SHA512 of any password, salt, iteration count and key length. -/
theorem C45_pbkdf2_sha512 (junk pass salt : Bytes) (iterations keylen : Nat) (hj : junk.length = 128)
    (hp : pass.length < 2 ^ 32) (hs : salt.length < 2 ^ 60) :
    sha512Code.pbkdf2 junk pass salt iterations keylen
      = Spec.pbkdf2 Spec.hmacSha512 64 pass salt iterations keylen :=
  Sha2Code.pbkdf2_spec sha512Ok sha512Count sha512Pads junk pass salt iterations keylen hj hp hs

theorem C45_pbkdf2_sha256 (junk pass salt : Bytes) (iterations keylen : Nat) (hj : junk.length = 64)
    (hp : pass.length < 2 ^ 32) (hs : salt.length < 2 ^ 60) :
    sha256Code.pbkdf2 junk pass salt iterations keylen
      = Spec.pbkdf2 Spec.hmacSha256 32 pass salt iterations keylen :=
  Sha2Code.pbkdf2_spec sha256Ok sha256Count sha256Pads junk pass salt iterations keylen hj hp hs

example : sha512Code.pbkdf2 (zeros 128) [1] [2] 2048 100 = Spec.pbkdf2 Spec.hmacSha512 64 [1] [2] 2048 100 :=
  C45_pbkdf2_sha512 _ _ _ _ _ (length_zeros _) (by decide) (by decide)

/-- However the iterations are split over calls of `Update` (the first call doing at
least one), the block is `F(P, S, c, i)` for their sum `c`. -/
theorem C45_split (junk pass salt : Bytes) (blocknr it : Nat) (its : List Nat) (hj : junk.length = 128)
    (hp : pass.length < 2 ^ 32) (hs : salt.length < 2 ^ 60) (hit : 1 ≤ it) :
    sha512Code.pbkdfFinal ((it :: its).foldl sha512Code.pbkdfUpdate
        (sha512Code.pbkdfInit junk pass salt (UInt32.ofNat blocknr)))
      = Spec.pbkdf2F Spec.hmacSha512 pass salt blocknr ((it :: its).sum - 1) := by
  have := Sha2Code.pbkdf_block sha512Ok sha512Count sha512Pads junk pass salt blocknr it its hj hp hs
  rw [this, List.sum_cons]
  congr 1
  omega

example : sha512Code.pbkdfFinal ([1, 0, 47].foldl sha512Code.pbkdfUpdate
        (sha512Code.pbkdfInit (zeros 128) [1] [2] (UInt32.ofNat 1)))
      = Spec.pbkdf2F Spec.hmacSha512 [1] [2] 1 47 :=
  C45_split (zeros 128) [1] [2] 1 1 [0, 47] (length_zeros _) (by decide) (by decide) (by decide)

/-- Two splits of the same total give the same bytes. -/
theorem C45_split_independent (junk junk' pass salt : Bytes) (blocknr it it' : Nat) (its its' : List Nat)
    (hj : junk.length = 128) (hj' : junk'.length = 128) (hp : pass.length < 2 ^ 32)
    (hs : salt.length < 2 ^ 60) (h1 : 1 ≤ it) (h2 : 1 ≤ it')
    (hsum : (it :: its).sum = (it' :: its').sum) :
    sha512Code.pbkdfFinal ((it :: its).foldl sha512Code.pbkdfUpdate
        (sha512Code.pbkdfInit junk pass salt (UInt32.ofNat blocknr)))
      = sha512Code.pbkdfFinal ((it' :: its').foldl sha512Code.pbkdfUpdate
        (sha512Code.pbkdfInit junk' pass salt (UInt32.ofNat blocknr))) := by
  rw [C45_split _ _ _ _ _ _ hj hp hs h1, C45_split _ _ _ _ _ _ hj' hp hs h2, hsum]

/-- A first call asking for no iterations is not free: one has already been done, so the
block has one iteration more than asked for. -/
theorem C45_zero_first (junk pass salt : Bytes) (blocknr : Nat) (its : List Nat) (hj : junk.length = 128)
    (hp : pass.length < 2 ^ 32) (hs : salt.length < 2 ^ 60) :
    sha512Code.pbkdfFinal ((0 :: its).foldl sha512Code.pbkdfUpdate
        (sha512Code.pbkdfInit junk pass salt (UInt32.ofNat blocknr)))
      = Spec.pbkdf2F Spec.hmacSha512 pass salt blocknr its.sum := by
  have := Sha2Code.pbkdf_block sha512Ok sha512Count sha512Pads junk pass salt blocknr 0 its hj hp hs
  rw [this]
  congr 1
  omega

/-! ### C46 -/

theorem hmacSha256_length (k m : Bytes) : (Spec.hmacSha256 k m).length = 32 := length_sha256 _

theorem drbg_state (x h : Bytes) (hx : x.length = 32) (hh : h.length = 32) (i : Nat) :
    Nat.repeat (fun s => (Rfc6979.generate s).2) i (Rfc6979.init x h)
      = ⟨(Spec.drbgState x h i).2, (Spec.drbgState x h i).1⟩ := by
  have hm := fun k m hk hm => Sha2Code.hmac_once sha256Ok sha256Count sha256Pads k m hk hm
  have e : ∀ k m : Bytes, k.length = 32 → m.length ≤ 97 → sha256Code.hmac k m = Spec.hmacSha256 k m :=
    fun k m h1 h2 => hm k m (by omega) (by omega)
  have hl := hmacSha256_length
  induction i with
  | zero =>
    have t1 : x.take 32 = x := List.take_of_length_le (by omega)
    have t2 : h.take 32 = h := List.take_of_length_le (by omega)
    show Rfc6979.init x h = _
    simp only [Rfc6979.init, t1, t2, Spec.drbgState, Spec.drbgInit]
    rw [e (List.replicate 32 0) _ (by simp) (by simp [hx, hh])]
    rw [e _ (List.replicate 32 1) (hl _ _) (by simp)]
    rw [e _ (_ ++ [0x01] ++ (x ++ h)) (hl _ _) (by simp [hx, hh, hl])]
    rw [e _ _ (hl _ _) (by simp [hl])]
    simp only [List.append_assoc]
  | succ i ih =>
    have hl1 : ∀ j, (Spec.drbgState x h j).1.length = 32 ∧ (Spec.drbgState x h j).2.length = 32 := by
      intro j; cases j <;> exact ⟨hl _ _, hl _ _⟩
    obtain ⟨l1, l2⟩ := hl1 i
    rw [Nat.repeat, ih]
    simp only [Rfc6979.generate, Spec.drbgState]
    rw [e _ _ l1 (show (Spec.drbgState x h i).2.length ≤ 97 by omega)]
    rw [e _ (Spec.hmacSha256 _ _ ++ [0x00]) l1 (by simp [hl]), e _ _ (hl _ _) (by simp [hl])]

/-- The nonce candidates of rfc6979.c are the HMAC-DRBG sequence of RFC 6979 seeded with
the secret key and the digest itself. -/
theorem C46_drbg (priv digest : Bytes) (hp : priv.length = 32) (hd : digest.length = 32) (i : Nat) :
    (Rfc6979.generate (Nat.repeat (fun s => (Rfc6979.generate s).2) i (Rfc6979.init priv digest))).1
      = Spec.drbgCandidate priv digest i := by
  rw [drbg_state priv digest hp hd i]
  have hl1 : (Spec.drbgState priv digest i).1.length = 32 ∧ (Spec.drbgState priv digest i).2.length = 32 := by
    cases i <;> exact ⟨hmacSha256_length _ _, hmacSha256_length _ _⟩
  simp only [Rfc6979.generate, Spec.drbgCandidate]
  have e := Sha2Code.hmac_once sha256Ok sha256Count sha256Pads (Spec.drbgState priv digest i).1
    (Spec.drbgState priv digest i).2 (by omega) (by omega)
  rw [e]
  exact List.take_left' (hmacSha256_length _ _)

/-- For digests below the group order these are the RFC 6979 candidates.  Missing: the
RFC reduces larger digests modulo the order, the code does not
(`C46_large_digest_deviates`), and the choice among the candidates. -/
theorem C46_rfc6979_partial (priv digest : Bytes) (hp : priv.length = 32) (hd : digest.length = 32)
    (hn : Spec.beNat digest < Spec.secp256k1Order) (i : Nat) :
    (Rfc6979.generate (Nat.repeat (fun s => (Rfc6979.generate s).2) i (Rfc6979.init priv digest))).1
      = Spec.rfc6979Candidate priv digest i := by
  rw [C46_drbg priv digest hp hd i, Spec.rfc6979Candidate, Nat.mod_eq_of_lt hn, ← hd, beBytes_beNat]

example : (Rfc6979.generate (Nat.repeat (fun s => (Rfc6979.generate s).2) 3
      (Rfc6979.init (List.replicate 32 1) (List.replicate 32 0xfe)))).1
    = Spec.rfc6979Candidate (List.replicate 32 1) (List.replicate 32 0xfe) 3 :=
  C46_rfc6979_partial _ _ (by simp) (by simp) (by decide +kernel) 3

/-- A digest at or above the group order gets a different nonce than in RFC 6979. -/
theorem C46_large_digest_deviates :
    ∃ priv digest : Bytes, priv.length = 32 ∧ digest.length = 32
      ∧ (Rfc6979.generate (Rfc6979.init priv digest)).1 ≠ Spec.rfc6979Candidate priv digest 0 := by
  refine ⟨List.replicate 32 1, List.replicate 32 0xff, by simp, by simp, ?_⟩
  decide +kernel

end UB
