import Verif.Model.Bignum

/-
The constants of secp256k1 (utility/trezor/secp256k1.c:25-58).
-/

namespace UB.Secp
open UB

/-- secp256k1.c:27 `prime`. -/
def prime : BN := [0x3ffffc2f, 0x3ffffffb, 0x3fffffff, 0x3fffffff, 0x3fffffff, 0x3fffffff, 0x3fffffff, 0x3fffffff, 0xffff]

/-- secp256k1.c:31-32 `G`. -/
def gx : BN := [0x16f81798, 0x27ca056c, 0x1ce28d95, 0x26ff36cb, 0x70b0702, 0x18a573a, 0xbbac55a, 0x199fbe77, 0x79be]
def gy : BN := [0x3b10d4b8, 0x311f423f, 0x28554199, 0x5ed1229, 0x1108a8fd, 0x13eff038, 0x3c4655da, 0x369dc9a8, 0x483a]

/-- secp256k1.c:36 `order`. -/
def order : BN := [0x10364141, 0x3f497a33, 0x348a03bb, 0x2bb739ab, 0x3ffffeba, 0x3fffffff, 0x3fffffff, 0x3fffffff, 0xffff]

/-- secp256k1.c:40 `order_half`. -/
def orderHalf : BN := [0x281b20a0, 0x3fa4bd19, 0x3a4501dd, 0x15db9cd5, 0x3fffff5d, 0x3fffffff, 0x3fffffff, 0x3fffffff, 0x7fff]

/-- secp256k1.c:43 `a`. -/
def a : Int := 0

/-- secp256k1.c:46 `b`. -/
def b : BN := [7, 0, 0, 0, 0, 0, 0, 0, 0]

end UB.Secp
