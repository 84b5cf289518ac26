import Verif.Props.Ecdsa
import Verif.Lemmas.CurveInfinity

/-
C63 for signatures and recovery numbers of any origin: `ecdsa_recover_pub_from_sig` against SEC 1, 4.1.6.
-/

namespace UB
open Spec BN

attribute [local irreducible] secpP secpN BN.multiply BN.fastMod BN.mod BN.subtractmod BN.multK BN.addmod BN.inverse BN.lshift BN.subi BN.add
  BN.multHalf BN.cmov BN.isEqual BN.isZero BN.sqrt BN.subtract scalarMultiply pointMultiply CurvePoint.add readBE writeBE signLoop verifyDigest
  getPublicKey33 getPublicKey65

/-- SEC 1, 4.1.6, steps 1.1 to 1.3: the point which `r` and the recovery number name. Bit 1 of the number says that the abscissa is r + n,
bit 0 is the parity of the ordinate. -/
def Spec.RecoveryPoint (r num : Nat) (R : Pt) : Prop :=
  R ≠ 0 ∧ xNat R = r + (if num.testBit 1 then secpN else 0) ∧ yNat R % 2 = num % 2

theorem bit_one (b : UInt8) : (b &&& 2 != 0) = b.toNat.testBit 1 := by
  revert b; apply forall_byte; decide +kernel

theorem bit_zero (b : UInt8) : (b &&& 1).toNat % 2 = b.toNat % 2 := by
  revert b; apply forall_byte; decide +kernel

/-- C63: numbers outside [1, n-1], or no point for `r` and the recovery number: the return value is 1 and no key is written. -/
theorem C63_refused (sig digest : Bytes) (hs : sig.length = 64) (recid : UInt8)
    (h : ¬ (0 < beNat (sig.take 32) ∧ beNat (sig.take 32) < secpN ∧ 0 < beNat (sig.drop 32) ∧ beNat (sig.drop 32) < secpN ∧
      ∃ R, RecoveryPoint (beNat (sig.take 32)) recid.toNat R)) (z1 z2 z3 : BN) :
    recoverPub sig digest recid z1 z2 z3 = .ok (1, none) := by
  obtain ⟨rb, sb, hr, hsb, rfl⟩ : ∃ rb sb : Bytes, rb.length = 32 ∧ sb.length = 32 ∧ sig = rb ++ sb :=
    ⟨sig.take 32, sig.drop 32, by simp; omega, by simp; omega, (List.take_append_drop ..).symm⟩
  rw [List.take_left' hr, List.drop_left' hr] at h
  obtain ⟨r1, r2⟩ := readBE_key hr
  obtain ⟨s1, s2⟩ := readBE_key hsb
  unfold recoverPub
  rw [load_lo hr, C.bind_ok, load_hi hr hsb, C.bind_ok]
  by_cases c1 : 0 < beNat rb ∧ beNat rb < secpN
  swap
  · rw [if_pos]
    · rfl
    · rw [Bool.or_eq_true, Bool.not_eq_true', ← Bool.not_eq_true, isLess_iff r1 modulus_order.normal, value_order, r2, isZero_iff, r2]
      omega
  have c1' : (!isLess (readBE rb) Secp.order || (readBE rb).isZero) = false := by
    rw [Bool.or_eq_false_iff, Bool.not_eq_false', isLess_iff r1 modulus_order.normal, value_order, r2, ← Bool.not_eq_true, isZero_iff, r2]
    omega
  rw [if_neg (by rw [c1']; decide)]
  by_cases c2 : 0 < beNat sb ∧ beNat sb < secpN
  swap
  · rw [if_pos]
    · rfl
    · rw [Bool.or_eq_true, Bool.not_eq_true', ← Bool.not_eq_true, isLess_iff s1 modulus_order.normal, value_order, s2, isZero_iff, s2]
      omega
  have c2' : (!isLess (readBE sb) Secp.order || (readBE sb).isZero) = false := by
    rw [Bool.or_eq_false_iff, Bool.not_eq_false', isLess_iff s1 modulus_order.normal, value_order, s2, ← Bool.not_eq_true, isZero_iff, s2]
    omega
  rw [if_neg (by rw [c2']; decide)]
  have hno : ¬ ∃ R, RecoveryPoint (beNat rb) recid.toNat R := fun hR => h ⟨c1.1, c1.2, c2.1, c2.2, hR⟩
  unfold RecoveryPoint at hno
  rw [← bit_one, ← bit_zero] at hno
  simp only
  have h2N := secpP_lt_2N
  have hN := secpN_lt
  obtain ⟨x1, x2⟩ : Normal (if (recid &&& 2 != 0) = true then BN.add (readBE rb) Secp.order else readBE rb) ∧
      limbValue (if (recid &&& 2 != 0) = true then BN.add (readBE rb) Secp.order else readBE rb) = beNat rb + (if (recid &&& 2 != 0) = true then secpN else 0) := by
    split
    · obtain ⟨a1, a2⟩ := add_spec (readBE rb) Secp.order r1 modulus_order.normal
      refine ⟨a1, ?_⟩
      rw [a2, r2, value_order]
      exact Nat.mod_eq_of_lt (by omega)
    · exact ⟨r1, by rw [r2, add_zero]⟩
  generalize hX : (if (recid &&& 2 != 0) = true then BN.add (readBE rb) Secp.order else readBE rb) = X at *
  by_cases c3 : limbValue X < secpP
  swap
  · rw [if_pos]
    · rfl
    · have hb : (recid &&& 2 != 0) = true := by
        by_contra hb
        rw [if_neg hb] at x2
        have := secpN_lt_P
        omega
      rw [hb, Bool.true_and, Bool.not_eq_true', ← Bool.not_eq_true, isLess_iff x1 modulus_prime.normal, value_prime]
      exact c3
  have c3' : isLess X Secp.prime = true := by rw [isLess_iff x1 modulus_prime.normal, value_prime]; exact c3
  rw [if_neg (by rw [c3']; simp)]
  obtain ⟨u1, u2⟩ := uncompressCoords_spec (recid &&& 1) x1 (c3.trans secpP_lt)
  have hv : validatePubkey ⟨X, uncompressCoords (recid &&& 1) X⟩ = false := by
    rw [← Bool.not_eq_true]
    intro hv
    obtain ⟨R, hR, hp⟩ := (validatePubkey_iff (p := ⟨X, uncompressCoords (recid &&& 1) X⟩) x1 u1).mp hv
    obtain ⟨y1, y2⟩ := isPoint_xNat hp
    have hat := hp.2.2.2.2.resolve_left fun hc => hR hc.1
    obtain ⟨v1, v2, -⟩ := u2 R _ c3 hat
    exact hno ⟨R, hR, by rw [← y1, ← x2], by rw [← y2, ← v2]⟩
  rw [if_pos (by rw [hv]; rfl)]
  rfl

/-- C63: the key is r⁻¹(s·R - e·G), and the signature is valid for it. -/
theorem C63_recovered (sig digest : Bytes) (hs : sig.length = 64) (hd : digest.length = 32) (recid : UInt8)
    (hr0 : 0 < beNat (sig.take 32)) (hrl : beNat (sig.take 32) < secpN) (hs0 : 0 < beNat (sig.drop 32)) (hsl : beNat (sig.drop 32) < secpN)
    (R : Pt) (hR : RecoveryPoint (beNat (sig.take 32)) recid.toNat R) (hne : beNat (sig.drop 32) • R ≠ beNat digest • G)
    (z1 z2 z3 : BN) (h1 : Blind z1) (h2 : Blind z2) (h3 : Blind z3) :
    ∃ pub Q, recoverPub sig digest recid z1 z2 z3 = .ok (0, some pub) ∧ IsSec pub false Q ∧
      beNat (sig.take 32) • Q = beNat (sig.drop 32) • R - beNat digest • G ∧ EcdsaValid Q (beNat digest) (beNat (sig.take 32)) (beNat (sig.drop 32)) := by
  obtain ⟨rb, sb, hr, hsb, rfl⟩ : ∃ rb sb : Bytes, rb.length = 32 ∧ sb.length = 32 ∧ sig = rb ++ sb :=
    ⟨sig.take 32, sig.drop 32, by simp; omega, by simp; omega, (List.take_append_drop ..).symm⟩
  rw [List.take_left' hr, List.drop_left' hr] at *
  have hrF := cast_ne hr0 hrl
  have hsF := cast_ne hs0 hsl
  have e1 : ((beNat sb : Fn)).val • R + (-(beNat digest : Fn)).val • G = beNat sb • R - beNat digest • G := by
    rw [smul_val, smul_neg_val, smul_val, sub_eq_add_neg]
  have hne' : ((beNat sb : Fn)).val • R + (-(beNat digest : Fn)).val • G ≠ 0 := by rw [e1]; exact sub_ne_zero.mpr hne
  have := recover_spec hr hsb hd recid hr0 hrl hs0 hsl hR.1 (by rw [bit_one]; exact hR.2.1) (by rw [bit_zero]; exact hR.2.2) hne' h1 h2 h3
  rw [e1] at this hne'
  have hQ : ((beNat rb : Fn)⁻¹).val • (beNat sb • R - beNat digest • G) ≠ 0 := smul_val_ne (inv_ne_zero hrF) hne'
  have hrQ : beNat rb • (((beNat rb : Fn)⁻¹).val • (beNat sb • R - beNat digest • G)) = beNat sb • R - beNat digest • G := by
    rw [← smul_val (beNat rb), smul_mul_val, mul_inv_cancel₀ hrF, ← Nat.cast_one, smul_val, one_nsmul]
  refine ⟨_, _, this, isSec_iff.mpr ⟨hQ, rfl⟩, hrQ, hr0, hrl, hs0, hsl, R, ?_, hR.1, ?_⟩
  · rw [div_eq_inv_mul, div_eq_inv_mul, ← smul_mul_val, ← smul_mul_val, smul_val (beNat rb), hrQ, smul_val (beNat digest), ← nsmul_add, add_sub_cancel,
      ← smul_val (beNat sb), smul_mul_val, inv_mul_cancel₀ hsF, ← Nat.cast_one, smul_val, one_nsmul]
  · rw [hR.2.1]
    split
    · rw [Nat.add_mod_right, Nat.mod_eq_of_lt hrl]
    · rw [Nat.add_zero, Nat.mod_eq_of_lt hrl]

/-- C63: if s·R = e·G there is no key (SEC 1 says to go on); the code multiplies the point at infinity and inverts zero, which reads outside
an array. -/
theorem C63_undefined (sig digest : Bytes) (hs : sig.length = 64) (hd : digest.length = 32) (recid : UInt8)
    (hr0 : 0 < beNat (sig.take 32)) (hrl : beNat (sig.take 32) < secpN) (hs0 : 0 < beNat (sig.drop 32)) (hsl : beNat (sig.drop 32) < secpN)
    (R : Pt) (hR : RecoveryPoint (beNat (sig.take 32)) recid.toNat R) (he : beNat (sig.drop 32) • R = beNat digest • G)
    (z1 z2 z3 : BN) (h1 : Blind z1) (h2 : Blind z2) (h3 : Blind z3) : recoverPub sig digest recid z1 z2 z3 = .ub := by
  obtain ⟨rb, sb, hr, hsb, rfl⟩ : ∃ rb sb : Bytes, rb.length = 32 ∧ sb.length = 32 ∧ sig = rb ++ sb :=
    ⟨sig.take 32, sig.drop 32, by simp; omega, by simp; omega, (List.take_append_drop ..).symm⟩
  rw [List.take_left' hr, List.drop_left' hr] at *
  have hrF := cast_ne hr0 hrl
  obtain ⟨ri, E, h, hn, hv, hp⟩ := recover_core hr hsb hd recid hr0 hrl hs0 hsl hR.1 (by rw [bit_one]; exact hR.2.1) (by rw [bit_zero]; exact hR.2.2) h1 h2 z3
  rw [smul_val, smul_neg_val, smul_val, he, add_neg_cancel] at hp
  have hE : E = CurvePoint.infinity := by
    obtain ⟨n1, n2, -, -, h0 | h0⟩ := hp
    · have v0 : limbValue BN.zero = 0 := by decide
      have e1 : E.x = BN.zero := limbValue_inj (by rw [n1.len, normal_zero.len]) n1.small normal_zero.small (by rw [h0.2.1, v0])
      have e2 : E.y = BN.zero := limbValue_inj (by rw [n2.len, normal_zero.len]) n2.small normal_zero.small (by rw [h0.2.2, v0])
      cases E
      subst e1 e2
      rfl
    · exact absurd rfl h0.ne_zero
  rw [h, hE, pointMultiply_infinity ri hn (by rw [hv]; exact ZMod.val_lt _) (by rw [hv]; exact fun h0 => inv_ne_zero hrF ((ZMod.val_eq_zero _).mp h0)) z3 h3.normal h3.lt]
  rfl

/-! ### The hypotheses are met -/

/-- r = x(G), s = e = 1: the digest 1, for which the signature (x(G), 1) names the key at infinity. -/
theorem gx_range : 0 < secpGx ∧ secpGx < secpN ∧ secpGx < 256 ^ 32 := by unfold secpN; decide +kernel

theorem recoveryPoint_G : RecoveryPoint secpGx 0 G := by
  refine ⟨at_G.ne_zero, ?_, ?_⟩
  · rw [xNat_at at_G, ZMod.val_natCast_of_lt (by unfold secpP; decide +kernel)]; simp
  · rw [yNat_at at_G, ZMod.val_natCast_of_lt (by unfold secpP; decide +kernel)]; decide +kernel

theorem gx_bytes : beNat (beBytes 32 secpGx) = secpGx := by rw [beNat_beBytes, Nat.mod_eq_of_lt gx_range.2.2]

/-- Undefined behaviour: anyone can write such a signature for the digest 1. -/
example : recoverPub (beBytes 32 secpGx ++ beBytes 32 1) (beBytes 32 1) 0 BN.one BN.one BN.one = .ub := by
  have l := Spec.length_beBytes 32 secpGx
  refine C63_undefined _ _ (by rw [List.length_append, l, Spec.length_beBytes]) (Spec.length_beBytes _ _) 0 ?_ ?_ ?_ ?_ G ?_ ?_ _ _ _ blind_one blind_one blind_one
  all_goals (first | rw [List.take_left' l, gx_bytes] | rw [List.drop_left' l, vector_key])
  · exact gx_range.1
  · exact gx_range.2.1
  · decide
  · unfold secpN; decide +kernel
  · exact recoveryPoint_G

/-- The same signature for the digest 2. -/
example : ∃ pub Q, recoverPub (beBytes 32 secpGx ++ beBytes 32 1) (beBytes 32 2) 0 BN.one BN.one BN.one = .ok (0, some pub) ∧ IsSec pub false Q := by
  have l := Spec.length_beBytes 32 secpGx
  have h2 : beNat (beBytes 32 2) = 2 := by decide +kernel
  obtain ⟨pub, Q, h, h', -⟩ := C63_recovered (beBytes 32 secpGx ++ beBytes 32 1) (beBytes 32 2) (by rw [List.length_append, l, Spec.length_beBytes])
    (Spec.length_beBytes _ _) 0 (by rw [List.take_left' l, gx_bytes]; exact gx_range.1) (by rw [List.take_left' l, gx_bytes]; exact gx_range.2.1)
    (by rw [List.drop_left' l, vector_key]; decide) (by rw [List.drop_left' l, vector_key]; unfold secpN; decide +kernel)
    G (by rw [List.take_left' l, gx_bytes]; exact recoveryPoint_G)
    (by
      rw [List.drop_left' l, vector_key, h2, one_nsmul, two_nsmul]
      intro h
      exact at_G.ne_zero (left_eq_add.mp h)) BN.one BN.one BN.one blind_one blind_one blind_one
  exact ⟨pub, Q, h, h'⟩

example : recoverPub (zeros 64) (zeros 32) 0 BN.one BN.one BN.one = .ok (1, none) :=
  C63_refused _ _ (by simp) 0 (fun h => by
    have : beNat ((zeros 64).take 32) = 0 := by decide +kernel
    rw [this] at h
    exact absurd h.1 (by decide)) _ _ _

end UB
