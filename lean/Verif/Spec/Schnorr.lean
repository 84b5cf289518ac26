import Verif.Spec.Ecdsa
import Verif.Spec.Sha2
import Verif.Model.Base

/-
Schnorr signatures with 32 byte keys (BIP 340), stated with numbers and points.
-/

namespace UB.Spec

/-- Of a point and its opposite, the one with the even ordinate. -/
def evenPoint (P : Pt) : Pt := if yNat P % 2 = 0 then P else -P

/-- Of a secret and its opposite, the one of the even point. -/
def evenScalar (d : Nat) : Nat := if yNat (d • G) % 2 = 0 then d else secpN - d

/-- The nonce before its sign is chosen: BIP 340 without auxiliary randomness, and without the masking of the secret by the hash of that
randomness (verification does not depend on how the nonce is chosen). -/
def schnorrNonce (d : Nat) (m : Bytes) : Nat :=
  beNat (taggedHash (str "BIP0340/nonce") (beBytes 32 d ++ beBytes 32 (xNat (d • G)) ++ m))

/-- The challenge for a nonce abscissa, a key abscissa and a message. -/
def schnorrChallenge (r px : Nat) (m : Bytes) : Nat :=
  beNat (taggedHash (str "BIP0340/challenge") (beBytes 32 r ++ beBytes 32 px ++ m))

/-- The signature of a message with a secret. -/
def schnorrSign (d : Nat) (m : Bytes) : Nat × Nat :=
  let d := evenScalar d
  let k := evenScalar (schnorrNonce d m)
  let r := xNat (k • G)
  (r, (k + schnorrChallenge r (xNat (d • G)) m * d) % secpN)

/-- BIP 340: `(r, s)` is a signature for the even point `P`. -/
def SchnorrValid (P : Pt) (m : Bytes) (r s : Nat) : Prop :=
  s < secpN ∧ ∃ R : Pt, R ≠ 0 ∧ yNat R % 2 = 0 ∧ xNat R = r ∧ s • G = R + schnorrChallenge r (xNat P) m • P

end UB.Spec
