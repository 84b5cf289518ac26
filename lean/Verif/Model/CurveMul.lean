import Verif.Model.Curve
import Verif.Model.SecpTable

/-
Multiplication of the base point with the table (utility/trezor/ecdsa.c:549-633).
-/

namespace UB

/-- ecdsa.c:551-633 `scalar_multiply`; `z` is the number drawn in `curve_to_jacobian`. -/
def scalarMultiply (k : BN) (z : BN) : C CurvePoint := do
  BN.require (BN.isLess k Secp.order)
  let a := recode k Secp.order
  BN.require (a.headD 0 &&& 1 != 0)
  if k.isZero then return CurvePoint.infinity
  else
    let d := digitBits (a.headD 0 &&& 31)
    let row ← entry Secp.cp 0
    let p0 ← entry row (d.2 >>> 1).toNat
    scalarMultiplyLoop (Secp.cp.drop 1) a (p0.toJacobian z)

end UB
