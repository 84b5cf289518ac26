import Verif.Spec.Sec
import Verif.Spec.Ecdsa

/-
What the 64 bytes of a public key object stand for.
-/

namespace UB.Spec

/-- Abscissa and ordinate of a point, 32 bytes each; 64 zero bytes for the point at infinity. -/
def rawPoint (P : Pt) : Bytes := beBytes 32 (xNat P) ++ beBytes 32 (yNat P)

/-- Encoding of a point that is not the point at infinity. -/
def secOf (compressed : Bool) (P : Pt) : Bytes := secBytes compressed (xNat P) (yNat P)

end UB.Spec
