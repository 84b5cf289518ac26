import Verif.Lemmas.EcdsaKeys
import Verif.Lemmas.CurveVector

/-
C51, C52 and C63: ECDSA signatures (utility/trezor/ecdsa.c).
Signing and verifying are judged against SEC 1 in the group of the curve (Spec/Ecdsa.lean), keys against Spec/Sec.lean.
-/

namespace UB
open Spec BN

attribute [local irreducible] secpP secpN BN.multiply BN.fastMod BN.mod BN.subtractmod BN.multK BN.addmod BN.inverse BN.lshift BN.subi BN.add
  BN.multHalf BN.cmov BN.isEqual BN.isZero BN.sqrt BN.subtract scalarMultiply pointMultiply CurvePoint.add readBE writeBE signLoop verifyDigest
  getPublicKey33 getPublicKey65 recoverPub

theorem blind_one : Blind BN.one := ⟨⟨by decide, by decide⟩, by decide, by unfold secpP; decide +kernel⟩

theorem draws_one : Draws fun _ => (BN.one, BN.one) :=
  ⟨fun _ => blind_one, fun _ => blind_one.normal, fun _ => blind_one.pos, fun _ => by unfold secpN; decide +kernel⟩

/-- `ecdsa_sign_digest` never fails an assertion, gives what deterministic ECDSA with low s gives (the first usable one of 10000 nonce
candidates, or nothing), and the result does not depend on the random numbers drawn. -/
theorem C51_sign_exact (priv digest : Bytes) (hp : priv.length = 32) (hd : digest.length = 32) (rnd : Nat → BN × BN) (hr : Draws rnd) :
    signDigest (fun _ _ => true) priv digest rnd =
      .ok ((ecdsaDeterministic priv digest 10000).map fun t => (beBytes 32 t.1 ++ beBytes 32 t.2.1, UInt8.ofNat t.2.2)) :=
  signDigest_spec hp hd hr

/-- The digest of the test vector: SHA-256 of "Satoshi Nakamoto". -/
def vectorDigest : Bytes := beBytes 32 0xa0dc65ffca799873cbea0ac274015b9526505daaaed385155425f7337704883e

theorem vector_candidate : beNat (drbgCandidate (beBytes 32 1) vectorDigest 0) = vectorK := by decide +kernel

theorem vector_digest : beNat vectorDigest = 0xa0dc65ffca799873cbea0ac274015b9526505daaaed385155425f7337704883e := by decide +kernel
theorem vector_key : beNat (beBytes 32 1) = 1 := by decide +kernel

theorem vector_sign : ecdsaSign 1 (beNat vectorDigest) vectorK =
    some (0x934b1ea10a4b3c1757e2b0c017d0b6143ce3c9a7e6a4a49860d7a6ab210ee3d8, 0x2442ce9d2b916064108014783e923ec36b49743e2ffa1c4496f01a512aafd9e5, 1) := by
  have hk0 : (vectorK : Fn) ≠ 0 := cast_ne (by decide +kernel) (by unfold secpN; decide +kernel)
  have hR : vectorK • G ≠ 0 := vector_at.ne_zero
  have hx : xNat (vectorK • G) = vectorX := by rw [xNat_at vector_at, ZMod.val_natCast_of_lt]; unfold secpP; decide +kernel
  have hy : yNat (vectorK • G) = vectorY := by rw [yNat_at vector_at, ZMod.val_natCast_of_lt]; unfold secpP; decide +kernel
  have hs : ((((beNat vectorDigest : Nat) : Fn) + ((vectorX % secpN : Nat) : Fn) * ((1 : Nat) : Fn)) / (vectorK : Fn)).val
      = 0xdbbd3162d46e9f9bef7feb87c16dc13b4f6568a87f4e83f728e2443ba586675c := by
    have e : (((beNat vectorDigest : Nat) : Fn) + ((vectorX % secpN : Nat) : Fn) * ((1 : Nat) : Fn)) / (vectorK : Fn)
        = ((0xdbbd3162d46e9f9bef7feb87c16dc13b4f6568a87f4e83f728e2443ba586675c : Nat) : Fn) := by
      rw [div_eq_iff hk0, ← Nat.cast_mul, ← Nat.cast_mul, ← Nat.cast_add, ZMod.natCast_eq_natCast_iff', vector_digest]
      unfold secpN
      decide +kernel
    rw [e, ZMod.val_natCast_of_lt]
    unfold secpN
    decide +kernel
  unfold ecdsaSign
  simp only
  rw [yNat_neg hR, hx, hy, hs, if_neg (by unfold secpN; decide +kernel), if_pos (by unfold secpN; decide +kernel),
    if_neg (show ¬ secpN ≤ vectorX by unfold secpN; decide +kernel)]
  unfold secpN secpP
  decide +kernel

/-- The signature of the well-known test vector, whatever the random numbers. -/
theorem vector_signature (rnd : Nat → BN × BN) (hr : Draws rnd) :
    signDigest (fun _ _ => true) (beBytes 32 1) vectorDigest rnd =
      .ok (some (beBytes 32 0x934b1ea10a4b3c1757e2b0c017d0b6143ce3c9a7e6a4a49860d7a6ab210ee3d8
        ++ beBytes 32 0x2442ce9d2b916064108014783e923ec36b49743e2ffa1c4496f01a512aafd9e5, 1)) := by
  rw [C51_sign_exact (beBytes 32 1) vectorDigest (Spec.length_beBytes _ _) (Spec.length_beBytes _ _) rnd hr]
  have : ecdsaDeterministic (beBytes 32 1) vectorDigest 10000 =
      some (0x934b1ea10a4b3c1757e2b0c017d0b6143ce3c9a7e6a4a49860d7a6ab210ee3d8, 0x2442ce9d2b916064108014783e923ec36b49743e2ffa1c4496f01a512aafd9e5, 1) := by
    unfold ecdsaDeterministic
    rw [show (10000 : Nat) = 9999 + 1 from rfl, List.range_succ_eq_map, List.findSome?_cons]
    simp only [vector_candidate, vector_key]
    rw [if_pos ⟨by decide +kernel, by unfold secpN; decide +kernel⟩, vector_sign]
  rw [this]
  rfl

example : ∃ o, signDigest (fun _ _ => true) (beBytes 32 1) vectorDigest (fun _ => (BN.one, BN.one)) = .ok (some o) :=
  ⟨_, vector_signature _ draws_one⟩

/-- Signature, key and digest of a successful signature. -/
theorem sign_facts {priv digest sig : Bytes} {b : UInt8} (hp : priv.length = 32) (hd : digest.length = 32) {rnd : Nat → BN × BN} (hr : Draws rnd)
    (hs : signDigest (fun _ _ => true) priv digest rnd = .ok (some (sig, b))) :
    ∃ k t, 0 < k ∧ k < secpN ∧ ecdsaSign (beNat priv) (beNat digest) k = some t ∧ sig = beBytes 32 t.1 ++ beBytes 32 t.2.1 ∧ b = UInt8.ofNat t.2.2 ∧
      beNat (beBytes 32 t.1) = t.1 ∧ beNat (beBytes 32 t.2.1) = t.2.1 := by
  rw [C51_sign_exact priv digest hp hd rnd hr, C.ok.injEq, Option.map_eq_some_iff] at hs
  obtain ⟨t, h1, h2⟩ := hs
  obtain ⟨k, k0, k1, k2⟩ := deterministic_some h1
  obtain ⟨a, b, c, d⟩ := ecdsaSign_range k2
  have hN := secpN_lt
  have br : beNat (beBytes 32 t.1) = t.1 := by rw [beNat_beBytes, Nat.mod_eq_of_lt (lt_of_lt_of_eq (b.trans hN) (by norm_num))]
  have bs : beNat (beBytes 32 t.2.1) = t.2.1 := by
    rw [beNat_beBytes, Nat.mod_eq_of_lt (lt_of_lt_of_eq (show t.2.1 < 2 ^ 256 by omega) (by norm_num))]
  rw [Prod.mk.injEq] at h2
  exact ⟨k, t, k0, k1, k2, h2.1.symm, h2.2.symm, br, bs⟩

/-- `ecdsa_verify_digest` with the encoding of a curve point (and anything after it in the buffer) accepts exactly the signatures that are
valid in the sense of SEC 1, except that it rejects everything for digests congruent to 0; no random number matters and no
assertion fails. -/
theorem C51_verify_exact (pub t sig digest : Bytes) (c : Bool) (Q : Pt) (hQ : IsSec pub c Q) (hs : sig.length = 64) (hd : digest.length = 32)
    (z1 z2 : BN) (h1 : Blind z1) (h2 : Blind z2) :
    ∃ v, verifyDigest (pub ++ t) sig digest z1 z2 = .ok v ∧
      (v = 0 ↔ EcdsaValid Q (beNat digest) (beNat (sig.take 32)) (beNat (sig.drop 32)) ∧ ¬ secpN ∣ beNat digest) := by
  have := verify_spec hQ t (rb := sig.take 32) (sb := sig.drop 32) (by simp; omega) (by simp; omega) hd h1 h2
  rw [List.take_append_drop] at this
  exact this

/-- A key that is not the encoding of a curve point is never used. -/
theorem C51_bad_key_rejected (pub sig digest : Bytes) (hl : pub.length = 65) (hbad : ∀ c Q, ¬ IsSec (pub.take (if c then 33 else 65)) c Q) (z1 z2 : BN) :
    verifyDigest pub sig digest z1 z2 = .ok 1 := by
  have hread : ∃ p, readPubkey pub CurvePoint.infinity = .ok (false, p) := by
    have ht : ∃ r, readPubkey pub CurvePoint.infinity = .ok r := by
      match pub, hl with
      | b0 :: bs, hl =>
        unfold readPubkey load
        have l0 : entry (b0 :: bs) 0 = .ok b0 := rfl
        rw [l0, C.bind_ok]
        split
        · rw [if_pos (by omega), C.bind_ok, if_pos (by omega), C.bind_ok]
          exact ⟨_, rfl⟩
        split
        · rw [if_pos (by omega), C.bind_ok]
          exact ⟨_, rfl⟩
        · exact ⟨_, rfl⟩
    obtain ⟨⟨b, p⟩, ht⟩ := ht
    cases b with
    | false => exact ⟨p, ht⟩
    | true =>
      obtain ⟨P, c, -, -, h⟩ := readPubkey_sound ht
      exact absurd h (hbad c P)
  obtain ⟨p, hp⟩ := hread
  unfold verifyDigest
  rw [hp, C.bind_ok]
  rfl

example : ∀ c Q, ¬ IsSec ((List.replicate 65 (5 : UInt8)).take (if c then 33 else 65)) c Q := by
  rintro c Q ⟨x, y, -, h⟩
  cases c
  · have := congrArg List.head? h
    simp [secBytes] at this
  · have := congrArg List.head? h
    simp only [secBytes, if_true] at this
    split at this <;> simp at this

/-- A digest congruent to 0 modulo the group order: every signature is rejected, although SEC 1 has valid ones. -/
theorem C51_zero_digest_rejected (pub t sig digest : Bytes) (c : Bool) (Q : Pt) (hQ : IsSec pub c Q) (hs : sig.length = 64) (hd : digest.length = 32)
    (h0 : secpN ∣ beNat digest) (z1 z2 : BN) (h1 : Blind z1) (h2 : Blind z2) :
    ∃ v, verifyDigest (pub ++ t) sig digest z1 z2 = .ok v ∧ v ≠ 0 := by
  obtain ⟨v, hv, hiff⟩ := C51_verify_exact pub t sig digest c Q hQ hs hd z1 z2 h1 h2
  exact ⟨v, hv, fun h => (hiff.mp h).2 h0⟩

theorem isSec_G (c : Bool) : IsSec (secBytes c secpGx secpGy) c G := by
  refine ⟨_, _, at_G, ?_⟩
  rw [ZMod.val_natCast_of_lt (by unfold secpP; decide +kernel), ZMod.val_natCast_of_lt (by unfold secpP; decide +kernel)]

example : ∃ v, verifyDigest (secBytes true secpGx secpGy ++ []) (List.replicate 64 1) (List.replicate 32 0) BN.one BN.one = .ok v ∧ v ≠ 0 :=
  C51_zero_digest_rejected _ _ _ _ _ _ (isSec_G true) (by simp) (by simp) (by rw [show beNat (List.replicate 32 0) = 0 by decide +kernel]; exact dvd_zero _)
    _ _ blind_one blind_one

/-- Signatures verify: for a key in [1, n-1] and a digest not congruent to 0, whatever random numbers are drawn. -/
theorem C51_sign_verifies (priv digest sig pub t : Bytes) (b : UInt8) (c : Bool) (hp : priv.length = 32) (hd : digest.length = 32)
    (hnz : ¬ secpN ∣ beNat digest) (hpub : IsSec pub c (beNat priv • G)) (rnd : Nat → BN × BN) (hr : Draws rnd)
    (hs : signDigest (fun _ _ => true) priv digest rnd = .ok (some (sig, b))) (z1 z2 : BN) (h1 : Blind z1) (h2 : Blind z2) :
    verifyDigest (pub ++ t) sig digest z1 z2 = .ok 0 := by
  obtain ⟨k, u, k0, k1, hk, rfl, -, br, bs⟩ := sign_facts hp hd hr hs
  obtain ⟨v, hv, hiff⟩ := verify_spec hpub t (Spec.length_beBytes 32 u.1) (Spec.length_beBytes 32 u.2.1) hd h1 h2
  rw [hv, hiff.mpr ⟨by rw [br, bs]; exact ecdsaSign_valid k0 k1 hk, hnz⟩]

/-- The public keys computed by the code are the encodings of d·G. -/
theorem C51_public_keys (priv : Bytes) (hl : priv.length = 32) (h0 : 0 < beNat priv) (hn : beNat priv < secpN) (z : BN) (hz : Blind z) :
    ∃ k33 k65, getPublicKey33 priv z = .ok k33 ∧ getPublicKey65 priv z = .ok k65 ∧
      IsSec k33 true (beNat priv • G) ∧ IsSec k65 false (beNat priv • G) := by
  have hne := GoodKey.ne ⟨hl, h0, hn⟩
  exact ⟨_, _, getPublicKey33_spec hl hn hz, getPublicKey65_spec hl hn hz, isSec_iff.mpr ⟨hne, rfl⟩, isSec_iff.mpr ⟨hne, rfl⟩⟩

/-- Sign, then verify with the compressed or uncompressed key the code computes. -/
theorem C51_roundtrip (priv digest sig k33 k65 t : Bytes) (b : UInt8) (hl : priv.length = 32) (h0 : 0 < beNat priv) (hn : beNat priv < secpN)
    (hd : digest.length = 32) (hnz : beNat digest % secpN ≠ 0) (rnd : Nat → BN × BN) (hr : Draws rnd) (z z' z1 z2 : BN) (hz : Blind z) (hz' : Blind z')
    (h1 : Blind z1) (h2 : Blind z2) (hs : signDigest (fun _ _ => true) priv digest rnd = .ok (some (sig, b)))
    (h33 : getPublicKey33 priv z = .ok k33) (h65 : getPublicKey65 priv z' = .ok k65) :
    verifyDigest (k33 ++ t) sig digest z1 z2 = .ok 0 ∧ verifyDigest (k65 ++ t) sig digest z1 z2 = .ok 0 := by
  obtain ⟨a, -, a1, -, a3, -⟩ := C51_public_keys priv hl h0 hn z hz
  obtain ⟨-, e, -, e2, -, e4⟩ := C51_public_keys priv hl h0 hn z' hz'
  rw [h33, C.ok.injEq] at a1
  rw [h65, C.ok.injEq] at e2
  subst a1 e2
  have hnd : ¬ secpN ∣ beNat digest := fun h => hnz (Nat.mod_eq_zero_of_dvd h)
  exact ⟨C51_sign_verifies priv digest sig _ t b true hl hd hnd a3 rnd hr hs z1 z2 h1 h2,
    C51_sign_verifies priv digest sig _ t b false hl hd hnd e4 rnd hr hs z1 z2 h1 h2⟩

example : verifyDigest (secBytes true secpGx secpGy ++ []) (beBytes 32 0x934b1ea10a4b3c1757e2b0c017d0b6143ce3c9a7e6a4a49860d7a6ab210ee3d8
        ++ beBytes 32 0x2442ce9d2b916064108014783e923ec36b49743e2ffa1c4496f01a512aafd9e5) vectorDigest BN.one BN.one = .ok 0 :=
  C51_sign_verifies (beBytes 32 1) vectorDigest _ _ _ 1 true (Spec.length_beBytes _ _) (Spec.length_beBytes _ _)
    (by rw [vector_digest]; unfold secpN; decide +kernel) (by rw [vector_key, one_nsmul]; exact isSec_G true) _ draws_one
    (vector_signature _ draws_one) _ _ blind_one blind_one

/-- A private key at or above the group order fails an assertion when its public key is computed. -/
theorem C51_large_key_undefined (priv : Bytes) (hl : priv.length = 32) (hn : secpN ≤ beNat priv) (z : BN) :
    getPublicKey33 priv z = .ub ∧ getPublicKey65 priv z = .ub := by
  obtain ⟨p1, p2⟩ := readBE_key hl
  have := scalarMultiply_large p1 (by rw [p2]; exact hn) z
  constructor
  · rw [getPublicKey33, this]; rfl
  · rw [getPublicKey65, this]; rfl

example : (List.replicate 32 (0xff : UInt8)).length = 32 ∧ secpN ≤ beNat (List.replicate 32 0xff) := ⟨by simp, by unfold secpN; decide +kernel⟩

/-- Signatures are canonical: 64 bytes, r and s in [1, n-1], s at most n/2. -/
theorem C52_canonical (priv digest sig : Bytes) (b : UInt8) (hp : priv.length = 32) (hd : digest.length = 32) (rnd : Nat → BN × BN) (hr : Draws rnd)
    (hs : signDigest (fun _ _ => true) priv digest rnd = .ok (some (sig, b))) :
    sig.length = 64 ∧ 0 < beNat (sig.take 32) ∧ beNat (sig.take 32) < secpN ∧ 0 < beNat (sig.drop 32) ∧ 2 * beNat (sig.drop 32) < secpN := by
  obtain ⟨k, u, k0, k1, hk, rfl, -, br, bs⟩ := sign_facts hp hd hr hs
  have l1 := Spec.length_beBytes 32 u.1
  have l2 := Spec.length_beBytes 32 u.2.1
  rw [List.take_left' l1, List.drop_left' l1, br, bs]
  exact ⟨by rw [List.length_append, l1, l2], ecdsaSign_range hk⟩

example : 2 * beNat ((beBytes 32 0x934b1ea10a4b3c1757e2b0c017d0b6143ce3c9a7e6a4a49860d7a6ab210ee3d8
        ++ beBytes 32 0x2442ce9d2b916064108014783e923ec36b49743e2ffa1c4496f01a512aafd9e5).drop 32) < secpN :=
  (C52_canonical (beBytes 32 1) vectorDigest _ 1 (Spec.length_beBytes _ _) (Spec.length_beBytes _ _) _ draws_one (vector_signature _ draws_one)).2.2.2.2

/-- Of the two signatures (r, s) and (r, n - s) only one is ever produced, but both verify: verification does not ask for low s. -/
theorem C52_verify_accepts_high_s (Q : Pt) (e r s : Nat) (h : EcdsaValid Q e r s) : EcdsaValid Q e r (secpN - s) := by
  obtain ⟨h1, h2, h3, h4, R, rfl, hR, hx⟩ := h
  refine ⟨h1, h2, by omega, by omega, _, rfl, ?_⟩
  have hc : ((secpN - s : Nat) : Fn) = -(s : Fn) := by
    rw [Nat.cast_sub h4.le, ZMod.natCast_self, zero_sub]
  rw [hc, div_neg, div_neg, smul_neg_val, smul_neg_val, ← neg_add]
  exact ⟨neg_ne_zero.mpr hR, by rw [xNat_neg]; exact hx⟩

example : ∃ Q e r s, EcdsaValid Q e r s := ⟨_, _, _, _, ecdsaSign_valid (by decide +kernel) (by unfold secpN; decide +kernel) vector_sign⟩

/-- Key recovery gives back the public key of the signer. -/
theorem C63_recover (priv digest sig : Bytes) (b : UInt8) (hl : priv.length = 32) (h0 : 0 < beNat priv) (hn : beNat priv < secpN)
    (hd : digest.length = 32) (rnd : Nat → BN × BN) (hr : Draws rnd) (hs : signDigest (fun _ _ => true) priv digest rnd = .ok (some (sig, b)))
    (z1 z2 z3 : BN) (h1 : Blind z1) (h2 : Blind z2) (h3 : Blind z3) :
    ∃ pub, recoverPub sig digest b z1 z2 z3 = .ok (0, some pub) ∧ IsSec pub false (beNat priv • G) := by
  obtain ⟨k, u, k0, k1, hk, rfl, rfl, -, -⟩ := sign_facts hl hd hr hs
  exact ⟨_, recover_sign hd (cast_ne h0 hn) k0 k1 hk h1 h2 h3, isSec_iff.mpr ⟨GoodKey.ne ⟨hl, h0, hn⟩, rfl⟩⟩

example : ∃ pub, recoverPub (beBytes 32 0x934b1ea10a4b3c1757e2b0c017d0b6143ce3c9a7e6a4a49860d7a6ab210ee3d8
        ++ beBytes 32 0x2442ce9d2b916064108014783e923ec36b49743e2ffa1c4496f01a512aafd9e5) vectorDigest 1 BN.one BN.one BN.one = .ok (0, some pub)
      ∧ IsSec pub false (beNat (beBytes 32 1) • G) :=
  C63_recover (beBytes 32 1) vectorDigest _ 1 (Spec.length_beBytes _ _) (by decide +kernel) (by unfold secpN; decide +kernel) (Spec.length_beBytes _ _)
    _ draws_one (vector_signature _ draws_one) _ _ _ blind_one blind_one blind_one

end UB
