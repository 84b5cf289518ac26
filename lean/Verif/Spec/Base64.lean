import Verif.Spec.Conversion

/-
Specification of base-64 text (RFC 4648 sections 4 and 5), independent of the code: the bit string of
the input is cut into groups of six bits (the last one filled with zero bits), each group selects a
character, and the padded flavour appends `=` up to a multiple of four characters.
-/

namespace UB.Spec

/-- Cut a bit string into numbers of six bits, filling the last one with zeros. -/
def sextets : List Bool → List Nat
  | a :: b :: c :: d :: e :: f :: rest => bitsValue [a, b, c, d, e, f] :: sextets rest
  | [] => []
  | l => [bitsValue (l ++ List.replicate (6 - l.length) false)]

def base64Alphabet (urlSafe : Bool) : Bytes :=
  if urlSafe then str "ABCDEFGHIJKLMNOPQRSTUVWXYZabcdefghijklmnopqrstuvwxyz0123456789-_"
  else str "ABCDEFGHIJKLMNOPQRSTUVWXYZabcdefghijklmnopqrstuvwxyz0123456789+/"

/-- Base-64 text of a byte string. -/
def base64Text (padded urlSafe : Bool) (a : Bytes) : Bytes :=
  let body := (sextets (a.flatMap bits8)).map fun s => (base64Alphabet urlSafe).getD s 0
  if padded then body ++ List.replicate ((4 - body.length % 4) % 4) 61 else body

end UB.Spec
