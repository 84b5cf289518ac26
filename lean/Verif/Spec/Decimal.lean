import Verif.Model.Base
import Mathlib.Data.List.DropRight

/-
Amounts of a currency as text.
-/

namespace UB.Spec

/-- The character of a decimal digit. -/
def digitChar (n : Nat) : UInt8 := UInt8.ofNat (48 + n)

/-- A number in decimal, without leading zeros. -/
def decimalText (n : Nat) : Bytes := if n < 10 then [digitChar n] else decimalText (n / 10) ++ [digitChar (n % 10)]

/-- The last `d` decimal digits of a number, the highest first. -/
def lastDigits (n d : Nat) : List Nat := ((List.range d).map fun i => n / 10 ^ i % 10).reverse

/-- The digits of a fraction as they are shown: all of them, or without the zeros at the end except for the first digit. -/
def shownDigits (trailing : Bool) (ds : List Nat) : List Nat := if trailing then ds else ds.take 1 ++ (ds.drop 1).rdropWhile (· = 0)

/-- `n` units of 10^-d. -/
def amountText (n d : Nat) (trailing : Bool) : Bytes :=
  decimalText (n / 10 ^ d) ++ if d = 0 then [] else 46 :: (shownDigits trailing (lastDigits n d)).map digitChar

/-- `n * 10^e`, rounded down. -/
def scaled (n : Nat) (e : Int) : Nat := if 0 ≤ e then n * 10 ^ e.toNat else n / 10 ^ (-e).toNat

end UB.Spec
