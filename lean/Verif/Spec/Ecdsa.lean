import Verif.Spec.BasePoint
import Verif.Spec.Rfc6979

/-
ECDSA over secp256k1 (SEC 1, version 2.0, section 4.1), in the group of the curve.
-/

namespace UB.Spec

/-- The abscissa of a point as a number (0 for the point at infinity). -/
def xNat : Pt → Nat
  | .zero => 0
  | .some x _ _ => x.val

/-- The ordinate of a point as a number (0 for the point at infinity). -/
def yNat : Pt → Nat
  | .zero => 0
  | .some _ y _ => y.val

/-- SEC 1, 4.1.4: (r, s) is a valid signature of the number `e` (the digest) for the public key `Q`. -/
def EcdsaValid (Q : Pt) (e r s : Nat) : Prop :=
  0 < r ∧ r < secpN ∧ 0 < s ∧ s < secpN ∧
    ∃ R : Pt, R = ((e : Fn) / (s : Fn)).val • G + ((r : Fn) / (s : Fn)).val • Q ∧ R ≠ 0 ∧ xNat R % secpN = r

/-- SEC 1, 4.1.3 with the nonce `k`, then BIP 62: the one of ±s that is at most n/2.  `none` if a new nonce has to be chosen.
The third component is the number of SEC 1, 4.1.6: bit 0 is the parity of the ordinate of the point k·G or −k·G belonging to s, bit 1
tells whether its abscissa is at least n. -/
noncomputable def ecdsaSign (d e k : Nat) : Option (Nat × Nat × Nat) :=
  let r := xNat (k • G) % secpN
  let s := (((e : Fn) + r * d) / (k : Fn)).val
  let bit1 := if secpN ≤ xNat (k • G) then 2 else 0
  if r = 0 ∨ s = 0 then none
  else if secpN < 2 * s then some (r, secpN - s, yNat (-(k • G)) % 2 + bit1)
  else some (r, s, yNat (k • G) % 2 + bit1)

/-- Deterministic signing: the first usable one among the first `n` HMAC-DRBG candidates seeded with key and digest. -/
noncomputable def ecdsaDeterministic (priv digest : Bytes) (n : Nat) : Option (Nat × Nat × Nat) :=
  (List.range n).findSome? fun i =>
    let k := beNat (drbgCandidate priv digest i)
    if 0 < k ∧ k < secpN then ecdsaSign (beNat priv) (beNat digest) k else none

end UB.Spec
