import Verif.Lemmas.Schnorr
import Verif.Lemmas.SchnorrVector

/-
C53: Schnorr signatures.
-/

namespace UB
open Spec BN

attribute [local irreducible] secpP secpN BN.multiply BN.fastMod BN.mod BN.subtractmod BN.multK BN.addmod BN.inverse BN.lshift BN.subi BN.add
  BN.multHalf BN.cmov BN.isEqual BN.isZero BN.sqrt BN.subtract scalarMultiply pointMultiply CurvePoint.add readBE writeBE BN.addi
  tagged3 Spec.taggedHash schnorrNonce schnorrChallenge

/-- A private key object that belongs to a number between 1 and the group order. -/
structure PrivKey.Holds (key : PrivKey) (d : Nat) : Prop where
  num : key.num = beBytes 32 d
  pos : 0 < d
  lt : d < secpN
  pub : key.pubKey.Holds (d • G)

theorem PrivKey.Holds.val {key : PrivKey} {d : Nat} (h : key.Holds d) : beNat key.num = d := by rw [h.num, beNat_num h.lt]
theorem PrivKey.Holds.length {key : PrivKey} {d : Nat} (h : key.Holds d) : key.num.length = 32 := by rw [h.num, Spec.length_beBytes]
theorem PrivKey.Holds.ne {key : PrivKey} {d : Nat} (h : key.Holds d) : d • G ≠ 0 := smul_ne_zero_of (cast_ne h.pos h.lt) G_ne_zero

/-- C53: `schnorr_sign` computes the signature of the specification, if the two hashes are below the group order … -/
theorem C53_sign_exact (key : PrivKey) (d : Nat) (hash : Bytes) (z : Nat → BN) (junk : Bytes) (h : key.Holds d) (hh : hash.length = 32)
    (hz : ∀ i, Blind (z i)) (hk : schnorrNonce (evenScalar d) hash < secpN)
    (hc : schnorrChallenge (schnorrSign d hash).1 (xNat (d • G)) hash < secpN) :
    key.schnorrSign hash z junk = .ok { r := beBytes 32 (schnorrSign d hash).1, s := beBytes 32 (schnorrSign d hash).2 } := by
  have := schnorrSign_spec (key := key) (hash := hash) (z := z) junk h.length (by rw [h.val]; exact h.lt) (by rw [h.val]; exact h.pub) hh hz
    (by rw [h.val]; exact hk) (by rw [h.val]; exact hc)
  rw [h.val] at this
  exact this

theorem nonce_hash (d : Nat) (hash : Bytes) (hh : hash.length = 32) :
    tagged3 tagNonce (beBytes 32 d) (beBytes 32 (xNat (d • G))) hash = beBytes 32 (schnorrNonce d hash) ∧ schnorrNonce d hash < 2 ^ 256 := by
  rw [tagged3_spec _ _ _ _ (by decide) (by simp [Spec.length_beBytes, hh]), tagNonce_eq]
  unfold schnorrNonce
  exact ⟨(beBytes_num (length_taggedHash _ _)).symm, beValue_lt32 (length_taggedHash _ _)⟩

theorem challenge_hash (r px : Nat) (hash : Bytes) (hh : hash.length = 32) :
    tagged3 tagChallenge (beBytes 32 r) (beBytes 32 px) hash = beBytes 32 (schnorrChallenge r px hash) ∧ schnorrChallenge r px hash < 2 ^ 256 := by
  rw [tagged3_spec _ _ _ _ (by decide) (by simp [Spec.length_beBytes, hh]), tagChallenge_eq]
  unfold schnorrChallenge
  exact ⟨(beBytes_num (length_taggedHash _ _)).symm, beValue_lt32 (length_taggedHash _ _)⟩

theorem beBytes_large {a : Nat} (h : a < 2 ^ 256) (hge : secpN ≤ a) : secpN ≤ beNat (beBytes 32 a) := by
  rw [beNat_beBytes32 h]; exact hge

/-- … and it fails an assertion if one of them is not (code and claim disagree: they are never reduced modulo the group order). -/
theorem C53_sign_undefined (key : PrivKey) (d : Nat) (hash : Bytes) (z : Nat → BN) (junk : Bytes) (h : key.Holds d) (hh : hash.length = 32)
    (hz : ∀ i, Blind (z i)) (hc : secpN ≤ schnorrNonce (evenScalar d) hash ∨ secpN ≤ schnorrChallenge (schnorrSign d hash).1 (xNat (d • G)) hash) :
    key.schnorrSign hash z junk = .ub := by
  obtain ⟨pub, e1, h1⟩ := evenKey_spec (num := key.num) junk h.length (by rw [h.val]; exact h.lt) (by rw [h.val]; exact h.pub) (hz 0)
  rw [h.val] at e1 h1
  have hr : (schnorrSign d hash).1 = xNat (evenScalar (schnorrNonce (evenScalar d) hash) • G) := rfl
  have hxd : xNat (d • G) = xNat (evenScalar d • G) := by rw [evenScalar_smul h.lt.le, xNat_evenPoint]
  rw [hr, hxd] at hc
  have hd := evenScalar_lt h.lt
  generalize evenScalar d = d' at *
  obtain ⟨ht, hb⟩ := nonce_hash d' hash hh
  unfold PrivKey.schnorrSign
  rw [e1, C.bind_ok]
  dsimp only
  rw [load_x h1, C.bind_ok, ht]
  by_cases hk : secpN ≤ schnorrNonce d' hash
  · rw [ofSecret_large (Spec.length_beBytes _ _) (beBytes_large hb hk), C.bind_ub]
  · have hc := hc.resolve_left hk
    have hk := not_le.mp hk
    have hnv := beNat_num hk
    generalize schnorrNonce d' hash = k0 at *
    obtain ⟨R, e2, h2⟩ := evenKey_spec (num := beBytes 32 k0) (pub := { point := rawPoint (k0 • G), compressed := true }) junk
      (Spec.length_beBytes _ _) (by rw [hnv]; exact hk) (by rw [hnv]; rfl) (hz 2)
    rw [hnv] at e2 h2
    rw [ofSecret_spec (Spec.length_beBytes _ _) (by rw [hnv]; exact hk) (hz 1), hnv, C.bind_ok, e2, C.bind_ok]
    obtain ⟨ht2, hb2⟩ := challenge_hash (xNat (evenScalar k0 • G)) (xNat (d' • G)) hash hh
    dsimp only
    rw [load_x h2, C.bind_ok, ht2, ofSecret_large (Spec.length_beBytes _ _) (beBytes_large hb2 hc), C.bind_ub]

/-- C53: the signature of the specification is valid. -/
theorem C53_sign_valid (d : Nat) (m : Bytes) (h0 : 0 < d) (hd : d < secpN) (hk0 : 0 < schnorrNonce (evenScalar d) m)
    (hk : schnorrNonce (evenScalar d) m < secpN) :
    SchnorrValid (evenPoint (d • G)) m (schnorrSign d m).1 (schnorrSign d m).2 := by
  have hr : (schnorrSign d m).1 = xNat (evenScalar (schnorrNonce (evenScalar d) m) • G) := rfl
  have hs : (schnorrSign d m).2 = (evenScalar (schnorrNonce (evenScalar d) m) +
      schnorrChallenge (schnorrSign d m).1 (xNat (evenScalar d • G)) m * evenScalar d) % secpN := rfl
  have hev := evenScalar_smul hd.le
  refine ⟨by rw [hs]; exact Nat.mod_lt _ pm_order.pr.pos, evenScalar (schnorrNonce (evenScalar d) m) • G, ?_, ?_, hr.symm, ?_⟩
  · exact smul_ne_zero_of (cast_ne (evenScalar_pos hk hk0) (evenScalar_lt hk)) G_ne_zero
  · rw [evenScalar_smul hk.le]; exact evenPoint_even _
  · rw [hs, ← hev]
    generalize schnorrChallenge (schnorrSign d m).1 (xNat (evenScalar d • G)) m = e
    rw [← mul_nsmul', ← add_nsmul]
    apply smul_congr
    rw [ZMod.natCast_mod]

/-- C53: what `schnorr_verify` decides for a nonce abscissa that exists, if s and the challenge are below the group order: it compares
abscissas only, so the two sides may also be opposite. -/
theorem C53_verify_exact (key : ECPoint) (P R : Pt) (g : SchnorrSig) (hash : Bytes) (z : Nat → BN) (junk : Bytes) (hp : key.Holds P) (h0 : P ≠ 0)
    (hr : g.r = beBytes 32 (xNat R)) (hR : R ≠ 0) (hev : yNat R % 2 = 0) (hs : g.s.length = 32) (hh : hash.length = 32) (hz : ∀ i, Blind (z i))
    (hc : schnorrChallenge (xNat R) (xNat P) hash < secpN) (hlt : beNat g.s < secpN) :
    ∃ b, key.schnorrVerify g hash z junk = .ok b ∧
      (b = true ↔ beNat g.s • G = R + schnorrChallenge (xNat R) (xNat P) hash • evenPoint P ∨
        -(beNat g.s • G) = R + schnorrChallenge (xNat R) (xNat P) hash • evenPoint P) := by
  refine ⟨_, schnorrVerify_spec junk hp h0 hr hR hev hs hh hz hc hlt, ?_⟩
  rw [decide_eq_true_iff, xNat_eq_iff, add_comm, eq_comm, eq_comm (b := -(beNat g.s • G))]

/-- C53: every valid signature is accepted (if the challenge is below the group order). -/
theorem C53_valid_accepted (key : ECPoint) (P : Pt) (g : SchnorrSig) (hash : Bytes) (z : Nat → BN) (junk : Bytes) (hp : key.Holds P) (h0 : P ≠ 0)
    (hrl : g.r.length = 32) (hs : g.s.length = 32) (hh : hash.length = 32) (hz : ∀ i, Blind (z i))
    (hc : schnorrChallenge (beNat g.r) (xNat P) hash < secpN) (hv : SchnorrValid (evenPoint P) hash (beNat g.r) (beNat g.s)) :
    key.schnorrVerify g hash z junk = .ok true := by
  obtain ⟨hlt, R, hR, hev, hx, he⟩ := hv
  have hr : g.r = beBytes 32 (xNat R) := by rw [hx, beBytes_num hrl]
  rw [← hx] at hc he
  rw [xNat_evenPoint] at he
  obtain ⟨b, hb, hiff⟩ := C53_verify_exact key P R g hash z junk hp h0 hr hR hev hs hh hz hc hlt
  rw [hb, hiff.mpr (.inl he)]

/-- C53: whatever `schnorr_sign` returns is accepted by `schnorr_verify` with the public key (compressed or not).  Missing for the full
claim: `schnorr_sign` does not always return (`C53_sign_undefined`), and a nonce hash of zero, for which r = 0, is not excluded by the code. -/
theorem C53_roundtrip_partial (key : PrivKey) (d : Nat) (pub : ECPoint) (g : SchnorrSig) (hash : Bytes) (z z' : Nat → BN) (junk junk' : Bytes)
    (h : key.Holds d) (hpub : pub.Holds (d • G)) (hh : hash.length = 32) (hz : ∀ i, Blind (z i)) (hz' : ∀ i, Blind (z' i))
    (hsig : key.schnorrSign hash z junk = .ok g) (hr0 : g.r ≠ zeros 32) : pub.schnorrVerify g hash z' junk' = .ok true := by
  have hk : schnorrNonce (evenScalar d) hash < secpN := by
    by_contra hc
    rw [C53_sign_undefined key d hash z junk h hh hz (.inl (not_lt.mp hc))] at hsig
    cases hsig
  have hc : schnorrChallenge (schnorrSign d hash).1 (xNat (d • G)) hash < secpN := by
    by_contra hc
    rw [C53_sign_undefined key d hash z junk h hh hz (.inr (not_lt.mp hc))] at hsig
    cases hsig
  rw [C53_sign_exact key d hash z junk h hh hz hk hc] at hsig
  cases hsig
  have hk0 : 0 < schnorrNonce (evenScalar d) hash := by
    apply Nat.pos_of_ne_zero
    intro h0
    apply hr0
    have e1 : evenScalar 0 = 0 := by unfold evenScalar; rw [zero_nsmul]; rfl
    have hr : (schnorrSign d hash).1 = xNat (evenScalar (schnorrNonce (evenScalar d) hash) • G) := rfl
    have e2 : xNat 0 = 0 := rfl
    show beBytes 32 _ = _
    rw [hr, h0, e1, zero_nsmul, e2]
    decide +kernel
  have hrv : beNat (beBytes 32 (schnorrSign d hash).1) = (schnorrSign d hash).1 := beNat_beBytes32 ((xNat_lt _).trans secpP_lt)
  have hsv : beNat (beBytes 32 (schnorrSign d hash).2) = (schnorrSign d hash).2 := beNat_num (Nat.mod_lt _ pm_order.pr.pos)
  refine C53_valid_accepted pub (d • G) _ hash z' junk' hpub h.ne (Spec.length_beBytes _ _) (Spec.length_beBytes _ _) hh hz' ?_ ?_
  · show schnorrChallenge (beNat (beBytes 32 _)) _ _ < _
    rw [hrv]; exact hc
  · show SchnorrValid _ _ (beNat (beBytes 32 _)) (beNat (beBytes 32 _))
    rw [hrv, hsv]
    exact C53_sign_valid d hash h.pos h.lt hk0 hk

/-- C53, code and claim disagree: from a valid signature (r, s) anyone can make (r, n - s), which is not valid, and `schnorr_verify`
accepts it. -/
theorem C53_negated_s_accepted (key : ECPoint) (P : Pt) (g : SchnorrSig) (hash : Bytes) (z : Nat → BN) (junk : Bytes) (hp : key.Holds P) (h0 : P ≠ 0)
    (hrl : g.r.length = 32) (hs : g.s.length = 32) (hh : hash.length = 32) (hz : ∀ i, Blind (z i))
    (hc : schnorrChallenge (beNat g.r) (xNat P) hash < secpN) (hv : SchnorrValid (evenPoint P) hash (beNat g.r) (beNat g.s)) (hne : beNat g.s ≠ 0) :
    key.schnorrVerify { g with s := beBytes 32 (secpN - beNat g.s) } hash z junk = .ok true ∧
      ¬ SchnorrValid (evenPoint P) hash (beNat g.r) (secpN - beNat g.s) := by
  obtain ⟨hlt, R, hR, hev, hx, he⟩ := hv
  have hr : g.r = beBytes 32 (xNat R) := by rw [hx, beBytes_num hrl]
  have hlt' : secpN - beNat g.s < secpN := by omega
  have hsv : beNat (beBytes 32 (secpN - beNat g.s)) = secpN - beNat g.s := beNat_num hlt'
  rw [xNat_evenPoint] at he
  constructor
  · rw [← hx] at hc he
    obtain ⟨b, hb, hiff⟩ := C53_verify_exact key P R { g with s := beBytes 32 (secpN - beNat g.s) } hash z junk hp h0 hr hR hev
      (Spec.length_beBytes _ _) hh hz hc (by show beNat (beBytes 32 _) < _; rw [hsv]; exact hlt')
    rw [hb, hiff.mpr]
    right
    show -(beNat (beBytes 32 _) • G) = _
    rw [hsv, neg_smul_sub hlt.le, neg_neg]
    exact he
  · rintro ⟨-, R', hR', hev', hx', he'⟩
    have hRR : R' = R := by
      rcases xNat_eq_iff.mp (hx'.trans hx.symm) with h | h
      · exact h
      · exfalso
        rw [h, yNat_neg hR] at hev'
        have := yNat_lt R
        have hodd : secpP % 2 = 1 := by unfold secpP; decide +kernel
        omega
    rw [xNat_evenPoint, hRR, ← he, neg_smul_sub hlt.le] at he'
    have h2 : (2 * beNat g.s) • G = 0 := by
      rw [mul_nsmul', two_nsmul]
      nth_rw 1 [← he']
      exact neg_add_cancel _
    refine smul_ne_zero_of ?_ G_ne_zero h2
    rw [Nat.cast_mul]
    refine mul_ne_zero (cast_ne (by norm_num) (by unfold secpN; decide +kernel)) (cast_ne (Nat.pos_of_ne_zero hne) hlt)

/-- C53, code and claim disagree: s at or above the group order is not rejected but fails an assertion. -/
theorem C53_large_s_undefined (key : ECPoint) (P R : Pt) (g : SchnorrSig) (hash : Bytes) (z : Nat → BN) (junk : Bytes) (hp : key.Holds P) (h0 : P ≠ 0)
    (hr : g.r = beBytes 32 (xNat R)) (hR : R ≠ 0) (hev : yNat R % 2 = 0) (hs : g.s.length = 32) (hh : hash.length = 32) (hz : ∀ i, Blind (z i))
    (hge : secpN ≤ beNat g.s) : key.schnorrVerify g hash z junk = .ub :=
  schnorrVerify_large junk hp h0 hr hR hev hs hh hz hge

/-! A signature. -/

theorem schnorr_nonce : schnorrNonce 1 (zeros 32) = schnorrK := by
  have h1 : xNat ((1 : Nat) • G) = secpGx := by rw [one_nsmul, xNat_at at_G, ZMod.val_natCast_of_lt (by unfold secpP; decide +kernel)]
  unfold schnorrNonce
  rw [h1]
  decide +kernel

theorem schnorr_coords : xNat (schnorrK • G) = schnorrX ∧ yNat (schnorrK • G) = schnorrY := by
  rw [xNat_at schnorr_at, yNat_at schnorr_at, ZMod.val_natCast_of_lt (by unfold secpP; decide +kernel),
    ZMod.val_natCast_of_lt (by unfold secpP; decide +kernel)]
  exact ⟨rfl, rfl⟩

theorem even_one : evenScalar 1 = 1 := by
  have h1 : yNat ((1 : Nat) • G) = secpGy := by rw [one_nsmul, yNat_at at_G, ZMod.val_natCast_of_lt (by unfold secpP; decide +kernel)]
  unfold evenScalar
  rw [h1]
  rfl

theorem schnorr_vector : schnorrSign 1 (zeros 32) = (schnorrX, schnorrS) ∧ schnorrChallenge schnorrX (xNat ((1 : Nat) • G)) (zeros 32) = schnorrE := by
  have h1 : xNat ((1 : Nat) • G) = secpGx := by rw [one_nsmul, xNat_at at_G, ZMod.val_natCast_of_lt (by unfold secpP; decide +kernel)]
  have he : schnorrChallenge schnorrX secpGx (zeros 32) = schnorrE := by
    unfold schnorrChallenge
    decide +kernel
  have hk : evenScalar schnorrK = secpN - schnorrK := by
    unfold evenScalar
    rw [schnorr_coords.2]
    exact if_neg (by decide +kernel)
  have hx : xNat ((secpN - schnorrK) • G) = schnorrX := by
    rw [neg_smul_sub (by unfold secpN; decide +kernel), xNat_neg, schnorr_coords.1]
  refine ⟨?_, by rw [h1, he]⟩
  unfold schnorrSign
  simp only [even_one, schnorr_nonce, hk, hx, h1, he]
  refine Prod.ext rfl ?_
  unfold secpN
  decide +kernel

/-- The private key 1. -/
def keyOne : PrivKey := { num := beBytes 32 1, pubKey := ECPoint.generator }

theorem keyOne_holds : keyOne.Holds 1 :=
  ⟨rfl, by decide, by unfold secpN; decide +kernel, by rw [one_nsmul]; exact ECPoint.holds_generator⟩

theorem schnorr_signed (z : Nat → BN) (hz : ∀ i, Blind (z i)) (junk : Bytes) :
    keyOne.schnorrSign (zeros 32) z junk = .ok { r := beBytes 32 schnorrX, s := beBytes 32 schnorrS } := by
  have := C53_sign_exact keyOne 1 (zeros 32) z junk keyOne_holds rfl hz (by rw [even_one, schnorr_nonce]; unfold secpN; decide +kernel)
    (by rw [schnorr_vector.1, schnorr_vector.2]; unfold secpN; decide +kernel)
  rw [schnorr_vector.1] at this
  exact this

example (z z' : Nat → BN) (hz : ∀ i, Blind (z i)) (hz' : ∀ i, Blind (z' i)) :
    ECPoint.generator.schnorrVerify { r := beBytes 32 schnorrX, s := beBytes 32 schnorrS } (zeros 32) z' [] = .ok true :=
  C53_roundtrip_partial keyOne 1 _ _ (zeros 32) z z' [] [] keyOne_holds (by rw [one_nsmul]; exact ECPoint.holds_generator) rfl hz hz'
    (schnorr_signed z hz []) (by decide +kernel)

example : ∃ z : Nat → BN, ∀ i, Blind (z i) := ⟨fun _ => _, fun _ => blind_one⟩

/-- The hypotheses of the remaining theorems of this section are met by this signature. -/
example : SchnorrValid (evenPoint ((1 : Nat) • G)) (zeros 32) (beNat (beBytes 32 schnorrX)) (beNat (beBytes 32 schnorrS)) ∧
    schnorrChallenge (beNat (beBytes 32 schnorrX)) (xNat ((1 : Nat) • G)) (zeros 32) < secpN ∧ beNat (beBytes 32 schnorrS) ≠ 0 := by
  have hx : beNat (beBytes 32 schnorrX) = schnorrX := by decide +kernel
  have hs : beNat (beBytes 32 schnorrS) = schnorrS := by decide +kernel
  have := C53_sign_valid 1 (zeros 32) (by decide) (by unfold secpN; decide +kernel) (by rw [even_one, schnorr_nonce]; decide +kernel)
    (by rw [even_one, schnorr_nonce]; unfold secpN; decide +kernel)
  rw [schnorr_vector.1] at this
  rw [hx, hs]
  exact ⟨this, by rw [schnorr_vector.2]; unfold secpN; decide +kernel, by decide +kernel⟩

end UB
