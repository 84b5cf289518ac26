import Verif.Model.Random
import Verif.Model.Bignum

/-
src/utility/trezor/ecdsa.c:194-204 `generate_k_random`.  As in Model/Random, `draws` are the values of successive calls of `random32` and `k` the
number of calls made so far.
-/

namespace UB
namespace BN

/-- ecdsa.c:198-201: the limbs of one attempt. -/
def kLimbs (draws : Nat → UInt32) (k : Nat) : BN := ((List.range 8).map fun i => draws (k + i) &&& 0x3FFFFFFF) ++ [draws (k + 8) &&& 0xFFFF]

/-- ecdsa.c:195-204 `generate_k_random`: `none` when `fuel` attempts have failed (the loop has no bound of its own). -/
def generateK (draws : Nat → UInt32) (prime : BN) : Nat → Nat → Option (BN × Nat)
  | 0, _ => none
  | fuel + 1, k =>
    if isZero (kLimbs draws k) || !isLess (kLimbs draws k) prime then generateK draws prime fuel (k + 9)
    else some (kLimbs draws k, k + 9)

end BN
end UB
