import Verif.Model.Bignum
import Verif.Model.Mnemonic

/-
src/utility/trezor/bignum.c: the functions on bits and decimal digits of a number: `bn_bitcount`, `bn_digitcount`, `bn_setbit`,
`bn_clearbit`, `bn_testbit`, `bn_xor`, `bn_divmod58`, `bn_divmod1000`, `bn_format`.
-/

namespace UB
namespace BN

/-- bignum.c:325-328 `bn_setbit`. -/
def setbit (a : BN) (bit : UInt8) : BN := a.modify (bit.toNat / 30) (· ||| ((1 : UInt32) <<< UInt32.ofNat (bit.toNat % 30)))

/-- bignum.c:331-334 `bn_clearbit`. -/
def clearbit (a : BN) (bit : UInt8) : BN := a.modify (bit.toNat / 30) (· &&& ~~~((1 : UInt32) <<< UInt32.ofNat (bit.toNat % 30)))

/-- bignum.c:337-340 `bn_testbit`. -/
def testbit (a : BN) (bit : UInt8) : UInt32 := a.getD (bit.toNat / 30) 0 &&& ((1 : UInt32) <<< UInt32.ofNat (bit.toNat % 30))

/-- bignum.c:343-349 `bn_xor`. -/
def xor (b c : BN) : BN := List.zipWith (· ^^^ ·) b c

/-- The compiler's `__builtin_clz` for a non-zero word. -/
def clz (x : UInt32) : Nat := 31 - x.toNat.log2

/-- bignum.c:188-196: the loop of `bn_bitcount` over the limbs from the highest; `i` is the index behind the first of them. -/
def bitcountLoop : Nat → List UInt32 → Nat
  | _, [] => 0
  | i, x :: xs => if x ≠ 0 then (i - 1) * 30 + (32 - clz x) else bitcountLoop (i - 1) xs

/-- bignum.c:186-196 `bn_bitcount`. -/
def bitcount (a : BN) : Nat := bitcountLoop a.length a.reverse

/-- bignum.c:947-959, 971-984: the loop over the limbs 7 to 0 (highest first here) with `2^30 = q * m + f`. -/
def divmodLoop (m f q : UInt32) : UInt32 → List UInt32 → List UInt32 × UInt32
  | rem, [] => ([], rem)
  | rem, x :: xs =>
    let tmp := rem * f + x
    let r := divmodLoop m f q (tmp % m) xs
    ((rem * q + tmp / m) :: r.1, r.2)

/-- bignum.c:941-962, 965-986 with the constants as parameters. -/
def divmod (m f q : UInt32) (a : BN) : BN × UInt32 :=
  match a.reverse with
  | [] => ([], 0)
  | top :: rest =>
    let r := divmodLoop m f q (top % m) rest
    ((top / m :: r.1).reverse, r.2)

/-- bignum.c:941-962 `bn_divmod58`: quotient and remainder. -/
def divmod58 (a : BN) : BN × UInt32 := divmod 58 4 18512790 a

/-- bignum.c:965-986 `bn_divmod1000`. -/
def divmod1000 (a : BN) : BN × UInt32 := divmod 1000 824 1073741 a

/-- bignum.c:207-218: the loop of `bn_digitcount`; `n` rounds are left. -/
def digitcountLoop : Nat → Nat → BN → Nat → Nat
  | 0, _, _, digits => digits
  | n + 1, i, val, digits =>
    let r := divmod1000 val
    let limb := r.2
    digitcountLoop n (i + 3) r.1 (if limb ≥ 100 then i + 3 else if limb ≥ 10 then i + 2 else if limb ≥ 1 then i + 1 else digits)

/-- bignum.c:198-221 `bn_digitcount`: `DIGITS / 3 = 26` rounds. -/
def digitcount (a : BN) : Nat := digitcountLoop 26 0 a 1

/-! ### `bn_format` -/

/-- The variables of `bn_format`: the buffer, the index `str` and the two counters. -/
structure Format where
  out : Bytes
  str : Nat
  exponent : Int
  decimals : Nat

/-- `return 0` (`none`) or go on. -/
def andThen {α β : Type} (x : C (Option α)) (f : α → C (Option β)) : C (Option β) := do
  match ← x with
  | none => return none
  | some a => f a

/-- bignum.c:1008-1012 `BN_FORMAT_PUSH_CHECKED`. -/
def pushChecked (start : Nat) (c : UInt8) (s : Format) : C (Option Format) :=
  if s.str = start then return none
  else if s.str = 0 then .ub
  else do
    let out ← store s.out (s.str - 1) [c]
    return some { s with out, str := s.str - 1 }

/-- bignum.c:1014-1025 `BN_FORMAT_PUSH`. -/
def push (start stop : Nat) (trailing : Bool) (n : UInt32) (s : Format) : C (Option Format) :=
  if s.exponent < 0 then return some { s with exponent := s.exponent + 1 }
  else
    andThen (if n > 0 || trailing || s.str != stop || decide (s.decimals ≤ 1) then pushChecked start (48 + n.toUInt8) s else return some s) fun s =>
      if s.decimals = 1 then pushChecked start 46 { s with decimals := 0 }
      else return some { s with decimals := s.decimals - 1 }

/-- bignum.c:1035-1037: the zeros of a positive exponent, `k` of them are left. -/
def expLoop (start stop : Nat) (trailing : Bool) : Nat → Format → C (Option Format)
  | 0, s => return some s
  | k + 1, s => andThen (push start stop trailing 0 s) fun s => expLoop start stop trailing k { s with exponent := s.exponent - 1 }

/-- bignum.c:1040-1049: three digits in each round. -/
def limbLoop (start stop : Nat) (trailing : Bool) : Nat → BN → Format → C (Option (BN × Format))
  | 0, val, s => return some (val, s)
  | k + 1, val, s =>
    let r := divmod1000 val
    let limb := r.2
    andThen (push start stop trailing (limb % 10) s) fun s =>
    andThen (push start stop trailing (limb / 10 % 10) s) fun s =>
    andThen (push start stop trailing (limb / 10 / 10 % 10) s) fun s =>
    limbLoop start stop trailing k r.1 s

/-- bignum.c:1051-1065: the remaining one or two digits. -/
def lastLimb (start stop : Nat) (trailing : Bool) (digits : Nat) (val : BN) (s : Format) : C (Option Format) :=
  if digits % 3 = 0 then return some s
  else
    let limb := (divmod1000 val).2
    if digits % 3 = 2 then
      andThen (push start stop trailing (limb % 10) s) fun s => push start stop trailing (limb / 10 % 10) s
    else push start stop trailing (limb % 10) s

/-- bignum.c:1067-1069.  The number of rounds is bounded by the first argument, as functions must terminate; `bn_format` starts with
enough of them (running out would be `ub`). -/
def closeLoop (start stop : Nat) (trailing : Bool) : Nat → Format → C (Option Format)
  | 0, _ => .ub
  | k + 1, s => do
    let c ← byteAt s.out s.str
    if s.decimals > 0 || c == 0 || c == 46 then
      andThen (push start stop trailing 0 s) fun s => closeLoop start stop trailing k s
    else return some s

/-- bignum.c:988-1079 `bn_format` (a NULL prefix or suffix is an empty one): return value and contents of `out`, a buffer of `outlen`
bytes; after `return 0` the contents are left out.  The counters are numbers without a bound here; `exponent` is an `int`. -/
def format (amnt : BN) (pre suf : Bytes) (decimals : Nat) (exponent : Int) (trailing : Bool) (out : Bytes) : C (Option (Nat × Bytes)) := do
  let outlen := out.length
  let out ← store out 0 pre
  if outlen < suf.length + 1 then .ub
  else
    let out ← store out (outlen - suf.length - 1) suf
    let out ← store out (outlen - 1) [0]
    let start := pre.length
    let stop := outlen - suf.length - 1
    let exponent := if isZero amnt then 0 else exponent
    andThen (expLoop start stop trailing exponent.toNat { out, str := stop, exponent, decimals }) fun s =>
      let digits := digitcount amnt
      andThen (limbLoop start stop trailing (digits / 3) amnt s) fun (val, s) =>
      andThen (lastLimb start stop trailing digits val s) fun s =>
      andThen (closeLoop start stop trailing (s.exponent.natAbs + s.decimals + 3) s) fun s => do
        let data ← load s.out s.str (outlen - s.str)
        let out ← store s.out pre.length data
        return some (pre.length + data.length - 1, out)

end BN
end UB
