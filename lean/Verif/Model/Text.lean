import Verif.Model.PSBT
import Verif.Props.Stream
import Verif.Model.StringFrom

/-
String forms of objects: `Readable::toString`, `Streamable::serialize` and `parse` of a `String`, the `String` overloads of the hex and
Base64 conversions, and `PSBT::parseBase64` / `toBase64`.

A `String` is the list of its characters; constructing one from a `char *` takes the characters before the first NUL (`stringFrom`).
`malloc`/`calloc` succeed (DESIGN.md, section 4) unless the size wraps around.
-/

namespace UB

/-- Conversion.cpp:39-53 `String toHex(array, arraySize)`. -/
def toHexString (array : Bytes) : C Bytes :=
  stringFrom (toHex array (zeros (array.length * 2 + 1))).2

/-- Conversion.cpp:698-707 `String toBase64(array, arraySize, flags)`. -/
def toBase64String (array : Bytes) (f : B64Flags) : C Bytes := do
  let (_, buf) ← toBase64 array (zeros (toBase64Length array.length f + 1)) f
  stringFrom buf

/-- Conversion.cpp:787-798 `base64ToHex`: the buffer is sized with `strlen`, the decoder is given `length()`; `c_str()` ends with a NUL. -/
def base64ToHex (b64 : Bytes) (f : B64Flags) : C Bytes := do
  let n ← fromBase64Length (cstr b64) f
  let (len, buf) ← fromBase64 b64 (zeros (n + 1)) f true
  toHexString (buf.take len)

/-- Conversion.cpp:799-807 `hexToBase64`; line 803 calls the `String` overload of `fromHex` (Conversion.cpp:119-121), which passes `length()`. -/
def hexToBase64 (hex : Bytes) (f : B64Flags) : C Bytes := do
  let (len, buf) ← fromHex hex (zeros ((cstr hex).length / 2 + 1))
  toBase64String (buf.take len) f

/-- BaseClasses.cpp:147-154 `Readable::toString()` for the classes that do not override `to_str` and `stringLength`
(BaseClasses.h:117-119,132): `serialize(buf, 2*length()+1)` in hex.  `ts` is `to_stream`, `length` is `length()`. -/
def stringOf (ts : Option Nat → Nat → C Bytes) (length : Nat) : C Bytes := do
  let (_, buf) ← serialize ts (2 * length + 1) 0 .hex
  stringFrom buf

/-- BaseClasses.cpp:160-169 `String Streamable::serialize(offset, len)`.  With `len = 0` and an offset past the end, `length()-offset` wraps
around, `calloc` fails and its result is used. A caller's `len` for which `2*len+1` wraps around is not modelled. -/
def serializeString (ts : Option Nat → Nat → C Bytes) (length offset len : Nat) : C Bytes :=
  if len = 0 ∧ length < offset then .ub
  else do
    let len := if len = 0 then length - offset else len
    let (_, buf) ← serialize ts (2 * len) offset .hex
    stringFrom (buf ++ [0])

/-- BaseClasses.h:152-155 `parse(String)` (HEX): the stream over the characters before the first NUL. -/
def hexStream (text : Bytes) : ParseByteStream := ⟨cstr text, 0, .hex⟩

namespace PSBT

/-- `to_stream` of a PSBT as a serializer; the return value of the function, which differs from the count, is not used by `serialize`. -/
def stream (p : PSBT) (cap : Option Nat) (offset : Nat) : C Bytes := do
  let (b, _) ← p.toStream cap offset
  return b

/-- `PSBT::toString()` (BaseClasses.cpp:147-154). -/
def toText (p : PSBT) : C Bytes := do
  let n ← p.length
  stringOf p.stream n

/-- PSBT.cpp:689-691 `toBase64`. -/
def toBase64 (p : PSBT) : C Bytes := do
  let t ← p.toText
  hexToBase64 t ⟨false, false⟩

/-- PSBT.cpp:684-688 `parseBase64`: new object and return value.  On an empty hex text the only `read()` not guarded by `available()`
is the one of line 146, reached when `bytes_parsed` is `last_key_pos`; it is out of bounds (`C60_empty_hex_read`). -/
def parseBase64 (junk : Nat → Bytes) (p : PSBT) (b64 : Bytes) : C (PSBT × Nat) := do
  let s ← base64ToHex b64 ⟨false, false⟩
  if s = [] ∧ p.status = .incomplete ∧ p.bytesParsed = p.lastKeyPos then .ub
  else return ((fromStream junk p (hexStream s).abs).1, s.length / 2)

end PSBT
end UB
