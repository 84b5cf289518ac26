import Verif.Model.BignumInverse
import Verif.Model.Secp256k1

/-
Model of the point arithmetic in utility/trezor/ecdsa.c:40-640 for the curve secp256k1.
The curve parameter is fixed to `&secp256k1` (the only curve the library uses), so `curve->a` is 0 and the branches `if (a != 0)`
are left out.  `assert` that fails is `ub`.  A function which draws random numbers gets the numbers drawn as parameters
(`generate_k_random`, ecdsa.c:195-204, returns a number k with 0 < k < prime, all limbs below 2^30).
-/

namespace UB

/-- ecdsa.h:33-35 `curve_point`. -/
structure CurvePoint where
  x : BN
  y : BN
deriving DecidableEq, Repr

/-- ecdsa.c:190-192 `jacobian_curve_point`. -/
structure JacobianPoint where
  x : BN
  y : BN
  z : BN
deriving DecidableEq, Repr

namespace CurvePoint
open BN Secp

/-- ecdsa.c:137-141 `point_set_infinity`. -/
def infinity : CurvePoint := ⟨BN.zero, BN.zero⟩

/-- ecdsa.c:145-148 `point_is_infinity`. -/
def isInfinity (p : CurvePoint) : Bool := p.x.isZero && p.y.isZero

/-- ecdsa.c:151-154 `point_is_equal`. -/
def isEqual (p q : CurvePoint) : Bool := p.x.isEqual q.x && p.y.isEqual q.y

/-- ecdsa.c:158-171 `point_is_negative_of`. -/
def isNegativeOf (p q : CurvePoint) : Bool :=
  if !p.x.isEqual q.x then false
  else if p.y.isZero then false
  else !p.y.isEqual q.y

/-- ecdsa.c:93-134 `point_double`: the new value of the point. -/
def double (cp : CurvePoint) : C CurvePoint :=
  if cp.isInfinity then .ok cp
  else if cp.y.isZero then .ok infinity
  else do
    let lambda := multK cp.y 2 prime
    let lambda ← inverse lambda prime
    let xr := multiply cp.x cp.x prime
    let xr := multK xr 3 prime
    let xr := subi xr 0 prime
    let lambda := multiply xr lambda prime
    let xr := multiply lambda lambda prime
    let yr := lshift cp.x
    let xr := subtractmod xr yr prime
    let xr := mod (fastMod xr prime) prime
    let yr := subtractmod cp.x xr prime
    let yr := multiply lambda yr prime
    let yr := subtractmod yr cp.y prime
    let yr := mod (fastMod yr prime) prime
    return ⟨xr, yr⟩

/-- ecdsa.c:47-90 `point_add`: the new value of `cp2`. -/
def add (cp1 cp2 : CurvePoint) : C CurvePoint :=
  if cp1.isInfinity then .ok cp2
  else if cp2.isInfinity then .ok cp1
  else if cp1.isEqual cp2 then double cp2
  else if cp1.isNegativeOf cp2 then .ok infinity
  else do
    let inv := subtractmod cp2.x cp1.x prime
    let inv ← inverse inv prime
    let lambda := subtractmod cp2.y cp1.y prime
    let lambda := multiply inv lambda prime
    let xr := multiply lambda lambda prime
    let yr := addmod cp1.x cp2.x prime
    let xr := subtractmod xr yr prime
    let xr := mod (fastMod xr prime) prime
    let yr := subtractmod cp1.x xr prime
    let yr := multiply lambda yr prime
    let yr := subtractmod yr cp1.y prime
    let yr := mod (fastMod yr prime) prime
    return ⟨xr, yr⟩

/-- ecdsa.c:206-219 `curve_to_jacobian`; `z` is the number drawn by `generate_k_random`. -/
def toJacobian (p : CurvePoint) (z : BN) : JacobianPoint :=
  let x := multiply z z prime
  let y := multiply z x prime
  ⟨multiply p.x x prime, multiply p.y y prime, z⟩

end CurvePoint

/-- ecdsa.c:180-187, the loop of `conditional_negate`: `tmp += 0x3fffffff + 2*prime[j] - a[j]`. -/
def negWords (a p : BN) : BN := BN.carry30 1 (List.zipWith (fun (a p : UInt32) => 0x3fffffff + 2 * p - a) a p)

/-- ecdsa.c:175-188 `conditional_negate`. -/
def conditionalNegate (cond : UInt32) (a prime : BN) : C BN := do
  BN.require (decide (a.getD 8 0 < 0x20000))
  let a := List.zipWith (fun n a => (n &&& cond) ||| (a &&& ~~~ cond)) (negWords a prime) a
  BN.require (decide (a.getD 8 0 < 0x20000))
  return a

namespace JacobianPoint
open BN Secp

/-- ecdsa.c:221-236 `jacobian_to_curve`. -/
def toCurve (jp : JacobianPoint) : C CurvePoint := do
  let y ← inverse jp.z prime
  let x := multiply y y prime
  let y := multiply x y prime
  let x := multiply jp.x x prime
  let y := multiply jp.y y prime
  return ⟨mod x prime, mod y prime⟩

/-- ecdsa.c:238-355 `point_jacobian_add`: the new value of `p2`. -/
def add (p1 : CurvePoint) (p2 : JacobianPoint) : JacobianPoint :=
  let xz := multiply p2.z p2.z prime
  let yz := multiply xz p2.z prime
  let xz := multiply p1.x xz prime
  let h := fastMod (subtractmod xz p2.x prime) prime
  let xz := BN.add xz p2.x
  let isDoubling := BN.isEqual h prime
  let yz := multiply p1.y yz prime
  let r := subtractmod yz p2.y prime
  let yz := BN.add yz p2.y
  let r2 := multK (multiply p2.x p2.x prime) 3 prime
  let r := cmov isDoubling r2 r
  let h := cmov isDoubling yz h
  let hsqx := multiply h h prime
  let hcby := multiply hsqx h prime
  let hsqx := multiply xz hsqx prime
  let hcby := multiply yz hcby prime
  let z := multiply h p2.z prime
  let x := multiply r r prime
  let x := fastMod (subtractmod x hsqx prime) prime
  let y := subtractmod hsqx x prime
  let y := subtractmod y x prime
  let y := multiply r y prime
  let y := subtractmod y hcby prime
  let y := fastMod (multHalf y prime) prime
  ⟨x, y, z⟩

/-- ecdsa.c:357-423 `point_jacobian_double`. -/
def double (p : JacobianPoint) : JacobianPoint :=
  let m := multK (multiply p.x p.x prime) 3 prime
  let az4 := multiply p.z p.z prime
  let az4 := multiply az4 az4 prime
  let az4 := multK az4 0 prime
  let m := multHalf (subtractmod m az4 prime) prime
  let msq := multiply m m prime
  let ysq := multiply p.y p.y prime
  let xysq := multiply ysq p.x prime
  let z := multiply p.y p.z prime
  let x := fastMod (lshift xysq) prime
  let x := fastMod (subtractmod msq x prime) prime
  let y := subtractmod xysq x prime
  let y := multiply m y prime
  let ysq := multiply ysq ysq prime
  let y := fastMod (subtractmod y ysq prime) prime
  ⟨x, y, z⟩

end JacobianPoint

/-! ### Multiplication -/

/-- ecdsa.c:449-458 and 566-575, the loop that computes `a`; the last word is not masked. -/
def recodeLoop (isEven : UInt32) : UInt32 → List (UInt32 × UInt32) → BN
  | _, [] => []
  | tmp, [(k, o)] => [tmp + 0xffff + k - (o &&& isEven)]
  | tmp, (k, o) :: rest =>
    let t := tmp + (0x3fffffff + k - (o &&& isEven))
    (t &&& 0x3fffffff) :: recodeLoop isEven (t >>> 30) rest

/-- ecdsa.c:439-458 and 557-575: `a` is `k + 2^256`, minus the order if `k` is even. -/
def recode (k order : BN) : BN := recodeLoop ((k.headD 0 &&& 1) - 1) 1 (List.zip k order)

/-- ecdsa.c:502-504, 529-531 and 605-606: the sign word `(bits >> 4) - 1` and `(bits ^ sign) & 15`. -/
def digitBits (bits : UInt32) : UInt32 × UInt32 := ((bits >>> 4) - 1, (bits ^^^ ((bits >>> 4) - 1)) &&& 15)

/-- `array[i]`, `ub` beyond the end. -/
def entry {α : Type} (l : List α) (i : Nat) : C α :=
  match l[i]? with
  | some a => .ok a
  | none => .ub

/-- ecdsa.c:482-489: `n` more entries of `pmult` from the entry `prev` on, `p2` is the double of the point. -/
def oddMultiples (p2 : CurvePoint) : Nat → CurvePoint → C (List CurvePoint)
  | 0, prev => .ok [prev]
  | n + 1, prev => do
    let next ← CurvePoint.add prev p2
    let rest ← oddMultiples p2 n next
    return prev :: rest

/-- ecdsa.c:517-527: the next four bits; `aptr` points to `a[idx]`.  Gives the bits (not yet masked), the index and the shift. -/
def nextWindow (a : BN) (idx ashift : Nat) : UInt32 × Nat × Nat :=
  if ashift < 4 then
    ((a.getD idx 0 <<< (4 - ashift).toUInt32) ||| (a.getD (idx - 1) 0 >>> (ashift + 26).toUInt32), idx - 1, ashift + 26)
  else (a.getD idx 0 >>> (ashift - 4).toUInt32, idx, ashift - 4)

/-- ecdsa.c:506-540, the loop of `point_multiply` for the rounds left, with the negation and conversion after it (ecdsa.c:541-542). -/
def pointMultiplyLoop (a : BN) (pmult : List CurvePoint) : Nat → JacobianPoint → UInt32 → Nat → Nat → C CurvePoint
  | 0, jres, sign, _, _ => do
    let z ← conditionalNegate sign jres.z Secp.prime
    JacobianPoint.toCurve ⟨jres.x, jres.y, z⟩
  | n + 1, jres, sign, idx, ashift => do
    let jres := jres.double.double.double.double
    let w := nextWindow a idx ashift
    let d := digitBits (w.1 &&& 31)
    let z ← conditionalNegate (sign ^^^ d.1) jres.z Secp.prime
    let p ← entry pmult (d.2 >>> 1).toNat
    pointMultiplyLoop a pmult n (JacobianPoint.add p ⟨jres.x, jres.y, z⟩) d.1 w.2.1 w.2.2

/-- ecdsa.c:426-545 `point_multiply`; `z` is the number drawn in `curve_to_jacobian`. -/
def pointMultiply (k : BN) (p : CurvePoint) (z : BN) : C CurvePoint := do
  BN.require (BN.isLess k Secp.order)
  let a := recode k Secp.order
  BN.require (a.headD 0 &&& 1 != 0)
  if k.isZero then return CurvePoint.infinity
  else
    let p2 ← p.double
    let pmult ← oddMultiples p2 7 p
    let d := digitBits (a.getD 8 0 >>> 12)
    let p0 ← entry pmult (d.2 >>> 1).toNat
    pointMultiplyLoop a pmult 63 (p0.toJacobian z) d.1 8 12

/-- ecdsa.c:611-615: shift `a` by 4 places. -/
def shift4 : BN → BN
  | [] => []
  | [a] => [a >>> 4]
  | a :: b :: as => ((a >>> 4) ||| ((b &&& 0xf) <<< (26 : UInt32))) :: shift4 (b :: as)

/-- ecdsa.c:608-628, the loop of `scalar_multiply` over the rows of the table, with the negation and conversion after it
(ecdsa.c:629-630). -/
def scalarMultiplyLoop : List (List CurvePoint) → BN → JacobianPoint → C CurvePoint
  | [], a, jres => do
    let y ← conditionalNegate (((a.headD 0 >>> 4) &&& 1) - 1) jres.y Secp.prime
    JacobianPoint.toCurve ⟨jres.x, y, jres.z⟩
  | row :: rows, a, jres => do
    let a := shift4 a
    let d := digitBits (a.headD 0 &&& 31)
    let y ← conditionalNegate ((d.2 &&& 1) - 1) jres.y Secp.prime
    let p ← entry row (d.2 >>> 1).toNat
    scalarMultiplyLoop rows a (JacobianPoint.add p ⟨jres.x, y, jres.z⟩)

end UB
