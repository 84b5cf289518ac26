import Verif.Model.Bech32

/-
The construction of a `String` from an array of characters.
-/

namespace UB

/-- `String(buf)` for an array of characters (Conversion.cpp:47,704; BaseClasses.cpp:151,166; Bitcoin.cpp:390,409,431; PSBT.cpp:84): the
characters before the first NUL; if there is none, the array is read past its end. -/
def stringFrom (buf : Bytes) : C Bytes :=
  if 0 ∈ buf then .ok (cstr buf) else .ub

end UB
