import Verif.Model.Base

/-
Derivation paths as BIP32 writes them: decimal numbers below 2^31, each possibly with a mark (h or ') for a hardened index, separated by
slashes; "m/" in front and one slash at the end may be there or not.
-/

namespace UB.Spec

/-- Is the character a decimal digit? -/
def isDigit (c : UInt8) : Bool := decide (48 ≤ c) && decide (c ≤ 57)

/-- Value of a string of decimal digits. -/
def decimal (ds : Bytes) : Nat := ds.foldl (fun n c => 10 * n + (c.toNat - 48)) 0

/-- The parts of a text between slashes. -/
def splitSlash : Bytes → List Bytes
  | [] => [[]]
  | c :: cs =>
    if c = 47 then [] :: splitSlash cs
    else match splitSlash cs with
      | [] => [[c]]
      | x :: xs => (c :: x) :: xs

/-- Index given by one component. -/
def component (c : Bytes) : Option Nat :=
  let ds := c.takeWhile isDigit
  let mark := c.dropWhile isDigit
  if ds = [] ∨ 2 ^ 31 ≤ decimal ds then none
  else if mark = [] then some (decimal ds)
  else if mark = [104] ∨ mark = [39] then some (decimal ds + 2 ^ 31)
  else none

/-- The text without "m/" in front and one slash at the end. -/
def pathText (path : Bytes) : Bytes :=
  let t := if path.take 2 = [109, 47] then path.drop 2 else path
  if t.getLast? = some 47 then t.dropLast else t

/-- The indexes of a path; `none` if it is not a path. -/
def pathIndexes (path : Bytes) : Option (List Nat) := (splitSlash (pathText path)).mapM component

/-- The indexes of a path for public keys: without hardened ones. -/
def pubPathIndexes (path : Bytes) : Option (List Nat) :=
  (pathIndexes path).bind fun is => if is.all fun i => decide (i < 2 ^ 31) then some is else none

end UB.Spec
