import Verif.Lemmas.FastSha
import Verif.Lemmas.Schnorr
import Verif.Spec.SigHash
import Verif.Spec.Ecdsa

/-
When a digest can be signed: hash values on given texts, the first two candidates for the nonce, and why one of them
gives a signature.  No multiple of the base point has to be computed.
-/

namespace UB
open Spec

attribute [local irreducible] secpP secpN

/-! ### Values of the hash functions -/

def shaStart : Regs Nat := ⟨0x6a09e667, 0xbb67ae85, 0x3c6ef372, 0xa54ff53a, 0x510e527f, 0x9b05688c, 0x1f83d9ab, 0x5be0cd19⟩

theorem shaStart_eq : FastSha.nats sha256P.h0 = shaStart := by decide +kernel

theorem sha256_of {m o : Bytes} {n t : Nat} (hp : sha256P.pad m = beBytes (64 * n) t) (hc : (FastSha.chain t n shaStart).toList.flatMap (beBytes 4) = o) : Spec.sha256 m = o := by
  have h := FastSha.chain_eq t n sha256P.h0
  rw [shaStart_eq, ← hp] at h
  unfold Spec.sha256 Sha2.hash Sha2.out
  rw [← hc, ← h]
  generalize sha256P.chain sha256P.h0 (sha256P.pad m) = r
  simp [Regs.toList, FastSha.nats, sha256P]

theorem hash256_of {m x i o : Bytes} (hx : m = x) (h1 : Spec.sha256 x = i) (h2 : Spec.sha256 i = o) : Spec.hash256 m = o := by
  unfold Spec.hash256
  rw [hx, h1, h2]

theorem hmac_of {key m x i y o : Bytes} (hl : key.length ≤ 64) (h1 : (key ++ zeros (64 - key.length)).map (· ^^^ 0x36) ++ m = x) (h2 : Spec.sha256 x = i)
    (h3 : (key ++ zeros (64 - key.length)).map (· ^^^ 0x5c) ++ i = y) (h4 : Spec.sha256 y = o) : hmacSha256 key m = o := by
  unfold hmacSha256 hmac
  dsimp only
  rw [if_neg (by omega), h1, h2, h3, h4]

theorem candidates_of {x h k1 v1 k2 v2 c0 k3 v3 c1 : Bytes} (h1 : hmacSha256 (List.replicate 32 0x00) (List.replicate 32 0x01 ++ [0x00] ++ x ++ h) = k1)
    (h2 : hmacSha256 k1 (List.replicate 32 0x01) = v1) (h3 : hmacSha256 k1 (v1 ++ [0x01] ++ x ++ h) = k2) (h4 : hmacSha256 k2 v1 = v2) (h5 : hmacSha256 k2 v2 = c0)
    (h6 : hmacSha256 k2 (c0 ++ [0x00]) = k3) (h7 : hmacSha256 k3 c0 = v3) (h8 : hmacSha256 k3 v3 = c1) : drbgCandidate x h 0 = c0 ∧ drbgCandidate x h 1 = c1 := by
  have e : drbgState x h 0 = (k2, v2) := by
    show drbgInit x h = _
    unfold drbgInit
    dsimp only
    rw [h1, h2, h3, h4]
  have e' : drbgState x h 1 = (k3, v3) := by
    unfold drbgState
    dsimp only
    rw [e]
    dsimp only
    rw [h5, h6, h7]
  unfold drbgCandidate
  dsimp only
  rw [e, e']
  exact ⟨h5, h8⟩

/-- What is signed for a version 0 witness program with SIGHASH_ALL. -/
theorem segwitSigHash_of {t : Transaction} {idx : Nat} {i : In} {code : Bytes} {amount : Nat} {p s o x y d : Bytes} (h1 : Spec.hash256 (prevoutsBytes t) = p)
    (h2 : Spec.hash256 (sequencesBytes t) = s) (h3 : Spec.hash256 (outputsBytes t) = o)
    (h4 : leBytes 4 t.version ++ p ++ s ++ outpoint i ++ varBytes code ++ leBytes 8 amount ++ leBytes 4 i.sequence ++ o ++ leBytes 4 t.locktime ++ leBytes 4 1 = x)
    (h5 : Spec.sha256 x = y) (h6 : Spec.sha256 y = d) : segwitSigHash t idx i code amount 1 = d := by
  unfold segwitSigHash
  refine hash256_of ?_ h5 h6
  unfold segwitSigPreimage
  rw [if_neg (by decide), if_neg (by decide), if_neg (by decide), if_neg (by decide), h1, h2, h3]
  exact h4

/-! ### One of two candidates gives a signature -/

/-- If x³ + 7 is not a square, no point has the abscissa x. -/
theorem xNat_ne_of {P : Pt} (h : P ≠ 0) (x : Nat) (hx : powMod secpP 256 (x ^ 3 + 7) ((secpP - 1) / 2) 1 ≠ 1) : xNat P ≠ x := by
  obtain ⟨u, y, hat⟩ := exists_at h
  rw [xNat_at hat]
  intro e
  have hu : u = (x : Fp) := by rw [← e, ZMod.natCast_zmod_val]
  have he := hat.eqn
  have h7 : y ^ 2 = ((x ^ 3 + 7 : Nat) : Fp) := by rw [hu] at he; push_cast; linear_combination he
  have h1 := ZMod.pow_card_sub_one_eq_one hat.y_ne
  have h2 : secpP - 1 = 2 * ((secpP - 1) / 2) := by unfold secpP; decide +kernel
  rw [h2, pow_mul, h7] at h1
  exact pow_ne_one_of secpP _ _ (by unfold secpP; decide +kernel) (by unfold secpP; decide +kernel) hx h1

theorem nsmul_G_ne {k : Nat} (h0 : 0 < k) (hk : k < secpN) : k • G ≠ 0 := by
  intro e
  have := addOrderOf_dvd_iff_nsmul_eq_zero.mpr e
  rw [order_G] at this
  exact absurd (Nat.le_of_dvd h0 this) (by omega)

/-- A nonce is usable unless the abscissa of its point is the order itself. -/
theorem ecdsaSign_ne {d e k r : Nat} (hd0 : 0 < d) (hd : d < secpN) (h0 : 0 < k) (hk : k < secpN) (hn : xNat (k • G) ≠ secpN) (hr : (e + r * d) % secpN = 0) (hrn : r < secpN) (hp : secpP ≤ r + secpN)
    (hx : powMod secpP 256 (r ^ 3 + 7) ((secpP - 1) / 2) 1 ≠ 1) : ecdsaSign d e k ≠ none := by
  have hP := nsmul_G_ne h0 hk
  have hlt := xNat_lt (k • G)
  have hne := xNat_ne hP
  have hxr := xNat_ne_of hP r hx
  have hpn : secpP < 2 * secpN := by unfold secpP secpN; decide +kernel
  have hr0 : xNat (k • G) % secpN ≠ 0 := by
    intro hc
    obtain ⟨q, hq⟩ := Nat.dvd_of_mod_eq_zero hc
    rcases q with - | - | q
    · omega
    · omega
    · have : secpN * (q + 1 + 1) = secpN * q + 2 * secpN := by ring
      omega
  have hs : (((e : Fn) + (xNat (k • G) % secpN : Nat) * (d : Nat)) / (k : Fn)).val ≠ 0 := by
    rw [Ne, ZMod.val_eq_zero, div_eq_zero_iff, not_or]
    constructor
    · intro hc
      have hc' : ((e + xNat (k • G) % secpN * d : Nat) : Fn) = 0 := by push_cast at hc ⊢; linear_combination hc
      rw [ZMod.natCast_eq_zero_iff] at hc'
      have hm := Nat.mod_eq_zero_of_dvd hc'
      have hmod : r % secpN = (xNat (k • G) % secpN) % secpN := by
        have : e + r * d ≡ e + xNat (k • G) % secpN * d [MOD secpN] := by unfold Nat.ModEq; rw [hr, hm]
        refine Nat.ModEq.cancel_right_of_coprime ?_ (Nat.ModEq.add_left_cancel' e this)
        exact (Nat.Prime.coprime_iff_not_dvd prime_secpN).mpr fun hdv => absurd (Nat.le_of_dvd hd0 hdv) (by omega)
      rw [Nat.mod_mod, Nat.mod_eq_of_lt hrn] at hmod
      by_cases hlt' : xNat (k • G) < secpN
      · rw [Nat.mod_eq_of_lt hlt'] at hmod
        exact hxr hmod.symm
      · rw [Nat.mod_eq_sub_mod (by omega), Nat.mod_eq_of_lt (by omega)] at hmod
        omega
    · intro hc
      rw [ZMod.natCast_eq_zero_iff] at hc
      exact absurd (Nat.le_of_dvd h0 hc) (by omega)
  unfold ecdsaSign
  dsimp only
  rw [if_neg (by rw [not_or]; exact ⟨hr0, hs⟩)]
  split <;> simp

/-- A digest can be signed if its first two candidates are different nonces and the number r for which s would be 0 is not an abscissa. -/
theorem deterministic_ne {h : Bytes} {d e k0 k1 r : Nat} (hd0 : 0 < d) (hdn : d < secpN) (he : beNat h = e)
    (hc : drbgCandidate (beBytes 32 d) h 0 = beBytes 32 k0 ∧ drbgCandidate (beBytes 32 d) h 1 = beBytes 32 k1)
    (h0 : 0 < k0 ∧ k0 < secpN) (h1 : 0 < k1 ∧ k1 < secpN) (hne : k0 ≠ k1) (hsum : k0 + k1 ≠ secpN) (hr : (e + r * d) % secpN = 0) (hrn : r < secpN) (hp : secpP ≤ r + secpN)
    (hx : powMod secpP 256 (r ^ 3 + 7) ((secpP - 1) / 2) 1 ≠ 1) : ecdsaDeterministic (beBytes 32 d) h 10000 ≠ none := by
  have hN : secpN < 256 ^ 32 := by unfold secpN; decide +kernel
  have hb : ∀ k, k < secpN → beNat (beBytes 32 k) = k := fun k hk => by rw [beNat_beBytes, Nat.mod_eq_of_lt (by omega)]
  have hd := hb d hdn
  unfold ecdsaDeterministic
  intro hcon
  rw [List.findSome?_eq_none_iff] at hcon
  have c0 := hcon 0 (by simp)
  have c1 := hcon 1 (by simp)
  dsimp only at c0 c1
  rw [hc.1, hb _ h0.2, if_pos h0, hd, he] at c0
  rw [hc.2, hb _ h1.2, if_pos h1, hd, he] at c1
  have x0 : xNat (k0 • G) = secpN := by
    by_contra hn
    exact ecdsaSign_ne hd0 hdn h0.1 h0.2 hn hr hrn hp hx c0
  have x1 : xNat (k1 • G) = secpN := by
    by_contra hn
    exact ecdsaSign_ne hd0 hdn h1.1 h1.2 hn hr hrn hp hx c1
  rcases xNat_eq_iff.mp (x0.trans x1.symm) with hq | hq
  · rw [nsmul_eq_nsmul_iff_modEq, order_G] at hq
    unfold Nat.ModEq at hq
    rw [Nat.mod_eq_of_lt h0.2, Nat.mod_eq_of_lt h1.2] at hq
    exact hne hq
  · rw [← add_eq_zero_iff_eq_neg, ← add_nsmul] at hq
    have := addOrderOf_dvd_iff_nsmul_eq_zero.mpr hq
    rw [order_G] at this
    obtain ⟨q, hq⟩ := this
    rcases q with - | - | q
    · omega
    · omega
    · have : secpN * (q + 1 + 1) = secpN * q + 2 * secpN := by ring
      omega

end UB
