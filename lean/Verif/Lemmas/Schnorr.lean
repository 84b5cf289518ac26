import Verif.Spec.Schnorr
import Verif.Props.PointOps

namespace UB
open Spec BN

attribute [local irreducible] secpP secpN BN.multiply BN.fastMod BN.mod BN.subtractmod BN.multK BN.addmod BN.inverse BN.lshift BN.subi BN.add
  BN.multHalf BN.cmov BN.isEqual BN.isZero BN.sqrt BN.subtract scalarMultiply pointMultiply CurvePoint.add readBE writeBE BN.addi

/-- 7 is not a square: no point has the abscissa 0. -/
theorem xNat_ne {P : Pt} (h : P ≠ 0) : xNat P ≠ 0 := by
  obtain ⟨x, y, hat⟩ := exists_at h
  rw [xNat_at hat]
  intro e
  have hx : x = 0 := (ZMod.val_eq_zero x).mp e
  have he := hat.eqn
  have h7 : y ^ 2 = ((7 : Nat) : Fp) := by rw [hx] at he; push_cast; linear_combination he
  have h1 := ZMod.pow_card_sub_one_eq_one hat.y_ne
  have h2 : secpP - 1 = 2 * ((secpP - 1) / 2) := by unfold secpP; decide +kernel
  rw [h2, pow_mul, h7] at h1
  exact pow_ne_one_of secpP 7 _ (by unfold secpP; decide +kernel) (by unfold secpP; decide +kernel) (by unfold secpP; decide +kernel) h1

/-- Two points have the same abscissa only if they are equal or opposite. -/
theorem xNat_eq_iff {P Q : Pt} : xNat P = xNat Q ↔ P = Q ∨ P = -Q := by
  constructor
  · intro h
    by_cases hP : P = 0
    · subst hP
      by_cases hQ : Q = 0
      · exact .inl hQ.symm
      · exact absurd h.symm (xNat_ne hQ)
    · by_cases hQ : Q = 0
      · subst hQ
        exact absurd h (xNat_ne hP)
      · obtain ⟨x, y, ha⟩ := exists_at hP
        obtain ⟨x', y', hb⟩ := exists_at hQ
        have hx : x = x' := by rw [xNat_at ha, xNat_at hb] at h; exact ZMod.val_injective _ h
        subst hx
        have e1 := ha.eqn
        have e2 := hb.eqn
        have : (y - y') * (y + y') = 0 := by linear_combination e1 - e2
        rcases mul_eq_zero.mp this with h0 | h0
        · left
          have : y = y' := sub_eq_zero.mp h0
          exact eq_of_coords hP hQ h (by rw [yNat_at ha, yNat_at hb, this])
        · right
          have : y = -y' := eq_neg_of_add_eq_zero_left h0
          refine eq_of_coords hP (neg_ne_zero.mpr hQ) (by rw [xNat_neg]; exact h) ?_
          rw [yNat_at ha, yNat_at hb.neg, this]
  · rintro (rfl | rfl)
    · rfl
    · exact xNat_neg Q

theorem neg_smul_sub {d : Nat} (h : d ≤ secpN) (P : Pt) : (secpN - d) • P = -(d • P) := by
  rw [eq_neg_iff_add_eq_zero, ← add_nsmul, Nat.sub_add_cancel h, nsmul_order]

theorem evenScalar_smul {d : Nat} (h : d ≤ secpN) : evenScalar d • G = evenPoint (d • G) := by
  unfold evenScalar evenPoint
  split_ifs
  · rfl
  · exact neg_smul_sub h G

theorem xNat_evenPoint (P : Pt) : xNat (evenPoint P) = xNat P := by
  unfold evenPoint
  split_ifs
  · rfl
  · exact xNat_neg P

theorem evenPoint_even (P : Pt) : yNat (evenPoint P) % 2 = 0 := by
  unfold evenPoint
  split_ifs with h
  · exact h
  · have h0 : P ≠ 0 := by rintro rfl; exact h rfl
    have hlt := yNat_lt P
    have hodd : secpP % 2 = 1 := by unfold secpP; decide +kernel
    rw [yNat_neg h0]
    omega

theorem evenPoint_ne {P : Pt} (h : P ≠ 0) : evenPoint P ≠ 0 := by
  unfold evenPoint
  split_ifs
  · exact h
  · exact neg_ne_zero.mpr h

theorem evenScalar_lt {d : Nat} (h : d < secpN) : evenScalar d < secpN := by
  unfold evenScalar
  split_ifs with he
  · exact h
  · have : d ≠ 0 := by
      rintro rfl
      apply he
      rw [zero_nsmul]; rfl
    omega

theorem evenScalar_pos {d : Nat} (h : d < secpN) (h0 : 0 < d) : 0 < evenScalar d := by
  unfold evenScalar
  split_ifs <;> omega

theorem beNat_num {d : Nat} (h : d < secpN) : beNat (beBytes 32 d) = d := beNat_beBytes32 (h.trans secpN_lt)

theorem beBytes_num {num : Bytes} (h : num.length = 32) : beBytes 32 (beNat num) = num := by
  have := beBytes_beNat num
  rw [h] at this
  exact this

theorem tagged3_spec (tag a b c : Bytes) (ht : tag.length < 2 ^ 61) (h : (a ++ b ++ c).length < 2 ^ 60) :
    tagged3 tag a b c = Spec.taggedHash tag (a ++ b ++ c) := by
  have := C43_taggedHash_pieces tag [a, b, c] ht (by simpa [Nat.add_assoc] using h)
  simpa [tagged3] using this

theorem tagNonce_eq : tagNonce = str "BIP0340/nonce" := by decide
theorem tagChallenge_eq : tagChallenge = str "BIP0340/challenge" := by decide

theorem ofSecret_spec {num : Bytes} (hl : num.length = 32) (hlt : beNat num < secpN) {z : BN} (hz : Blind z) (c : Bool) (net : Network) :
    PrivKey.ofSecret num z c net = .ok { num := num, network := net, pubKey := { point := rawPoint (beNat num • G), compressed := c } } := by
  unfold PrivKey.ofSecret
  rw [pubOf_spec hl hlt hz]
  rfl

theorem ofScalar_spec {num : Bytes} (hl : num.length = 32) (hlt : beNat num < secpN) {z : BN} (hz : Blind z) :
    PrivKey.ofScalar num z = .ok { num := num, pubKey := { point := rawPoint (beNat num • G) } } := by
  unfold PrivKey.ofScalar
  rw [pubOf_spec hl hlt hz]
  rfl

theorem ofSecret_large {num : Bytes} (hl : num.length = 32) (hge : secpN ≤ beNat num) (z : BN) (c : Bool) (net : Network) :
    PrivKey.ofSecret num z c net = .ub := by
  unfold PrivKey.ofSecret
  rw [pubOf_large hl hge]
  rfl

theorem toPublic_holds {p : ECPoint} {P : Pt} (h : p.Holds P) : p.toPublic.Holds P := h

theorem evenKey_spec {num : Bytes} {pub : ECPoint} (junk : Bytes) (hl : num.length = 32) (hlt : beNat num < secpN)
    (hp : pub.Holds (beNat num • G)) {z : BN} (hz : Blind z) :
    ∃ q, evenKey junk num pub z = .ok (beBytes 32 (evenScalar (beNat num)), q) ∧ q.Holds (evenScalar (beNat num) • G) := by
  unfold evenKey
  rw [ECPoint.isEven_holds hp, C.bind_ok]
  by_cases he : yNat (beNat num • G) % 2 = 0
  · rw [if_pos (by rw [he]; rfl)]
    unfold evenScalar
    rw [if_pos he, beBytes_num hl]
    exact ⟨_, rfl, hp⟩
  · rw [if_neg (by simpa using he)]
    have hs : evenScalar (beNat num) = secpN - beNat num := if_neg he
    have hlt' := evenScalar_lt hlt
    have hn : Scalar.neg num = beBytes 32 (evenScalar (beNat num)) := by rw [hs]; exact Scalar.neg_spec hl hlt.le
    obtain ⟨q, q1, q2, -⟩ := ECPoint.neg_holds junk hp
    rw [hn, ofScalar_spec (Spec.length_beBytes _ _) (by rw [beNat_num hlt']; exact hlt') hz, q1]
    simp only [C.bind_ok, C.pure_eq]
    refine ⟨_, rfl, ?_⟩
    rw [hs, neg_smul_sub hlt.le]
    exact toPublic_holds q2

attribute [local irreducible] tagged3 Spec.taggedHash schnorrNonce schnorrChallenge

theorem load_x {p : ECPoint} {P : Pt} (h : p.Holds P) : load p.point 0 32 = .ok (beBytes 32 (xNat P)) := by
  rw [show p.point = rawPoint P from h]
  exact (readRaw P).1

theorem length_taggedHash (t m : Bytes) : (Spec.taggedHash t m).length = 32 := by
  unfold Spec.taggedHash; exact length_sha256 _

/-- What `schnorr_sign` computes. -/
theorem schnorrSign_spec {key : PrivKey} {hash : Bytes} {z : Nat → BN} (junk : Bytes) (hl : key.num.length = 32) (hlt : beNat key.num < secpN)
    (hp : key.pubKey.Holds (beNat key.num • G)) (hh : hash.length = 32) (hz : ∀ i, Blind (z i))
    (hk : schnorrNonce (evenScalar (beNat key.num)) hash < secpN)
    (hc : schnorrChallenge (schnorrSign (beNat key.num) hash).1 (xNat (beNat key.num • G)) hash < secpN) :
    key.schnorrSign hash z junk = .ok { r := beBytes 32 (schnorrSign (beNat key.num) hash).1, s := beBytes 32 (schnorrSign (beNat key.num) hash).2 } := by
  obtain ⟨pub, e1, h1⟩ := evenKey_spec junk hl hlt hp (hz 0)
  have hd := evenScalar_lt hlt
  generalize hd' : evenScalar (beNat key.num) = d at *
  have ht1 : tagged3 tagNonce (beBytes 32 d) (beBytes 32 (xNat (d • G))) hash = beBytes 32 (schnorrNonce d hash) := by
    rw [tagged3_spec _ _ _ _ (by decide) (by simp [Spec.length_beBytes, hh]), tagNonce_eq]
    unfold schnorrNonce
    exact (beBytes_num (length_taggedHash _ _)).symm
  have hnl := Spec.length_beBytes 32 (schnorrNonce d hash)
  have hnv := beNat_num hk
  obtain ⟨R, e2, h2⟩ := evenKey_spec (num := beBytes 32 (schnorrNonce d hash))
    (pub := { point := rawPoint (schnorrNonce d hash • G), compressed := true }) junk hnl (by rw [hnv]; exact hk) (by rw [hnv]; rfl) (hz 2)
  rw [hnv] at e2 h2
  have hkk := evenScalar_lt hk
  have hr : (schnorrSign (beNat key.num) hash).1 = xNat (evenScalar (schnorrNonce d hash) • G) := by
    unfold schnorrSign
    rw [hd']
  have hxd : xNat (beNat key.num • G) = xNat (d • G) := by rw [← hd', evenScalar_smul hlt.le, xNat_evenPoint]
  rw [hr, hxd] at hc
  have hs2 : (schnorrSign (beNat key.num) hash).2 =
      (evenScalar (schnorrNonce d hash) + schnorrChallenge (xNat (evenScalar (schnorrNonce d hash) • G)) (xNat (d • G)) hash * d) % secpN := by
    unfold schnorrSign
    rw [hd']
  rw [hr, hs2]
  generalize schnorrNonce d hash = k0 at *
  generalize evenScalar k0 = k at *
  have ht2 : tagged3 tagChallenge (beBytes 32 (xNat (k • G))) (beBytes 32 (xNat (d • G))) hash =
      beBytes 32 (schnorrChallenge (xNat (k • G)) (xNat (d • G)) hash) := by
    rw [tagged3_spec _ _ _ _ (by decide) (by simp [Spec.length_beBytes, hh]), tagChallenge_eq]
    unfold schnorrChallenge
    exact (beBytes_num (length_taggedHash _ _)).symm
  generalize schnorrChallenge (xNat (k • G)) (xNat (d • G)) hash = e at *
  have ha : Scalar.add (beBytes 32 k) (Scalar.mul (beBytes 32 e) (beBytes 32 d)) = beBytes 32 ((k + e * d) % secpN) := by
    obtain ⟨m1, m2⟩ := Scalar.C61_mul _ _ (Spec.length_beBytes 32 e) (Spec.length_beBytes 32 d)
    obtain ⟨a1, a2⟩ := Scalar.C61_add _ _ (Spec.length_beBytes 32 k) m1
    rw [← beBytes_num a1, a2, m2, beNat_num hc, beNat_num hd, beNat_num hkk, Nat.add_mod_mod]
  unfold PrivKey.schnorrSign
  rw [e1, C.bind_ok]
  dsimp only
  rw [load_x h1, C.bind_ok]
  rw [ht1, ofSecret_spec hnl (by rw [hnv]; exact hk) (hz 1), hnv, C.bind_ok]
  rw [e2, C.bind_ok]
  rw [load_x h2, C.bind_ok]
  rw [ht2, ofSecret_spec (Spec.length_beBytes _ _) (by rw [beNat_num hc]; exact hc) (hz 3), C.bind_ok]
  have hlt2 : (k + e * d) % secpN < secpN := Nat.mod_lt _ pm_order.pr.pos
  rw [ha, ofScalar_spec (Spec.length_beBytes _ _) (by rw [beNat_num hlt2]; exact hlt2) (hz 4), C.bind_ok]
  rfl

theorem evenPub_spec {key : ECPoint} {P : Pt} (junk : Bytes) (hp : key.Holds P) : ∃ pub, key.evenPub junk = .ok pub ∧ pub.Holds (evenPoint P) := by
  unfold ECPoint.evenPub evenPoint
  rw [ECPoint.isEven_holds hp, C.bind_ok]
  by_cases he : yNat P % 2 = 0
  · rw [if_pos (by rw [he]; rfl), if_pos he]
    exact ⟨_, rfl, hp⟩
  · rw [if_neg (by simpa using he), if_neg he]
    obtain ⟨q, q1, q2, -⟩ := ECPoint.neg_holds junk hp
    rw [q1]
    exact ⟨_, rfl, toPublic_holds q2⟩

/-- What `schnorr_verify` decides. -/
theorem schnorrVerify_spec {key : ECPoint} {P R : Pt} {g : SchnorrSig} {hash : Bytes} {z : Nat → BN} (junk : Bytes) (hp : key.Holds P) (h0 : P ≠ 0)
    (hr : g.r = beBytes 32 (xNat R)) (hR : R ≠ 0) (hev : yNat R % 2 = 0) (hs : g.s.length = 32) (hh : hash.length = 32) (hz : ∀ i, Blind (z i))
    (hc : schnorrChallenge (xNat R) (xNat P) hash < secpN) (hlt : beNat g.s < secpN) :
    key.schnorrVerify g hash z junk =
      .ok (decide (xNat (schnorrChallenge (xNat R) (xNat P) hash • evenPoint P + R) = xNat (beNat g.s • G))) := by
  obtain ⟨pub, hpub, hold⟩ := evenPub_spec junk hp
  have hser : serialize g.toStream 64 0 .raw = .ok (64, g.r ++ g.s) := by
    rw [serialize_eq _ _ (fun cap off => SchnorrSig.C34_schnorr_toStream g (by rw [hr]; exact Spec.length_beBytes _ _) hs cap off)]
    have : (g.r ++ g.s).length = 64 := by rw [List.length_append, hr, Spec.length_beBytes, hs]
    simp only [serialized]
    rw [List.drop_zero, List.take_of_length_le this.le, this]
    simp
  have hfx : ∃ q : ECPoint, ECPoint.fromX junk {} g.r = (q, 33) ∧ q.Has true R := by
    obtain ⟨q, q1, q2⟩ := ECPoint.fromSec_secOf (p := {}) junk true [] rfl rfl hR
    refine ⟨q, ?_, q2⟩
    rw [List.append_nil] at q1
    unfold ECPoint.fromX
    have he : secOf true R = 0x02 :: beBytes 32 (xNat R) := by
      unfold secOf secBytes
      rw [if_pos rfl, hev, if_neg (by decide)]
    rw [hr, ← he, q1, if_pos rfl]
  obtain ⟨q, q1, q2⟩ := hfx
  unfold ECPoint.schnorrVerify
  have hgl : g.r.length = 32 := by rw [hr]; exact Spec.length_beBytes _ _
  have hx := load_x hold
  rw [xNat_evenPoint] at hx
  have ht : tagged3 tagChallenge g.r (beBytes 32 (xNat P)) hash = beBytes 32 (schnorrChallenge (xNat R) (xNat P) hash) := by
    rw [hr, tagged3_spec _ _ _ _ (by decide) (by simp [Spec.length_beBytes, hh]), tagChallenge_eq]
    unfold schnorrChallenge
    exact (beBytes_num (length_taggedHash _ _)).symm
  generalize schnorrChallenge (xNat R) (xNat P) hash = e at *
  obtain ⟨eP, m1, m2, -⟩ := ECPoint.mul_holds (Spec.length_beBytes 32 e) (by rw [beNat_num hc]; exact hc) hold (evenPoint_ne h0) (hz 1)
  rw [beNat_num hc] at m2
  obtain ⟨S, s1, s2, -⟩ := ECPoint.add_holds m2 q2.point
  have hst : ¬ q.status = .ub := by rw [q2.status]; decide
  rw [hpub, C.bind_ok, hser, C.bind_ok]
  dsimp only
  rw [load_lo hgl, C.bind_ok, q1]
  dsimp only
  rw [if_neg hst, hx, C.bind_ok, ht, ofSecret_spec (Spec.length_beBytes _ _) (by rw [beNat_num hc]; exact hc) (hz 0), C.bind_ok, m1, C.bind_ok, s1,
    C.bind_ok, load_x s2, C.bind_ok, load_hi hgl hs, C.bind_ok, ofSecret_spec hs hlt (hz 2), C.bind_ok, (readRaw _).1, C.bind_ok, C.pure_eq]
  congr 1
  rw [Bool.eq_iff_iff, beq_iff_eq, decide_eq_true_iff]
  exact ⟨fun h => beBytes_inj ((xNat_lt _).trans p_lt_bytes) ((xNat_lt _).trans p_lt_bytes) h, fun h => by rw [h]⟩

/-- A large s fails an assertion (if the challenge has not done so already). -/
theorem schnorrVerify_large {key : ECPoint} {P R : Pt} {g : SchnorrSig} {hash : Bytes} {z : Nat → BN} (junk : Bytes) (hp : key.Holds P) (h0 : P ≠ 0)
    (hr : g.r = beBytes 32 (xNat R)) (hR : R ≠ 0) (hev : yNat R % 2 = 0) (hs : g.s.length = 32) (hh : hash.length = 32) (hz : ∀ i, Blind (z i))
    (hge : secpN ≤ beNat g.s) : key.schnorrVerify g hash z junk = .ub := by
  obtain ⟨pub, hpub, hold⟩ := evenPub_spec junk hp
  have hser : serialize g.toStream 64 0 .raw = .ok (64, g.r ++ g.s) := by
    rw [serialize_eq _ _ (fun cap off => SchnorrSig.C34_schnorr_toStream g (by rw [hr]; exact Spec.length_beBytes _ _) hs cap off)]
    have : (g.r ++ g.s).length = 64 := by rw [List.length_append, hr, Spec.length_beBytes, hs]
    simp only [serialized]
    rw [List.drop_zero, List.take_of_length_le this.le, this]
    simp
  have hfx : ∃ q : ECPoint, ECPoint.fromX junk {} g.r = (q, 33) ∧ q.Has true R := by
    obtain ⟨q, q1, q2⟩ := ECPoint.fromSec_secOf (p := {}) junk true [] rfl rfl hR
    refine ⟨q, ?_, q2⟩
    rw [List.append_nil] at q1
    unfold ECPoint.fromX
    have he : secOf true R = 0x02 :: beBytes 32 (xNat R) := by
      unfold secOf secBytes
      rw [if_pos rfl, hev, if_neg (by decide)]
    rw [hr, ← he, q1, if_pos rfl]
  obtain ⟨q, q1, q2⟩ := hfx
  unfold ECPoint.schnorrVerify
  have hgl : g.r.length = 32 := by rw [hr]; exact Spec.length_beBytes _ _
  have hx := load_x hold
  rw [xNat_evenPoint] at hx
  have ht : tagged3 tagChallenge g.r (beBytes 32 (xNat P)) hash = beBytes 32 (schnorrChallenge (xNat R) (xNat P) hash) := by
    rw [hr, tagged3_spec _ _ _ _ (by decide) (by simp [Spec.length_beBytes, hh]), tagChallenge_eq]
    unfold schnorrChallenge
    exact (beBytes_num (length_taggedHash _ _)).symm
  have hst : ¬ q.status = .ub := by rw [q2.status]; decide
  rw [hpub, C.bind_ok, hser, C.bind_ok]
  dsimp only
  rw [load_lo hgl, C.bind_ok, q1]
  dsimp only
  rw [if_neg hst, hx, C.bind_ok, ht]
  have hb : schnorrChallenge (xNat R) (xNat P) hash < 2 ^ 256 := by
    unfold schnorrChallenge
    exact beValue_lt32 (length_taggedHash _ _)
  generalize schnorrChallenge (xNat R) (xNat P) hash = e at *
  by_cases hc : e < secpN
  · obtain ⟨eP, m1, m2, -⟩ := ECPoint.mul_holds (Spec.length_beBytes 32 e) (by rw [beNat_num hc]; exact hc) hold (evenPoint_ne h0) (hz 1)
    rw [beNat_num hc] at m2
    obtain ⟨S, s1, s2, -⟩ := ECPoint.add_holds m2 q2.point
    rw [ofSecret_spec (Spec.length_beBytes _ _) (by rw [beNat_num hc]; exact hc) (hz 0), C.bind_ok, m1, C.bind_ok, s1,
      C.bind_ok, load_x s2, C.bind_ok, load_hi hgl hs, C.bind_ok, ofSecret_large hs hge, C.bind_ub]
  · rw [ofSecret_large (Spec.length_beBytes _ _) (by rw [beNat_beBytes32 hb]; exact not_lt.mp hc), C.bind_ub]

end UB
