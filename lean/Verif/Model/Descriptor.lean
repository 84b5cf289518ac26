import Verif.Model.Base
import Verif.Model.Mnemonic
import Verif.Model.StringFrom

/-
Descriptor checksums: PSBT.cpp:16-86.
-/

namespace UB

/-- PSBT.cpp:17-26 `PolyMod`; `val` is not negative at any call. -/
def polyMod (c val : UInt64) : UInt64 :=
  let c0 := (c >>> 35).toUInt8
  let c := ((c &&& 0x7ffffffff) <<< 5) ^^^ val
  let c := if c0 &&& 1 != 0 then c ^^^ 0xf5dee51989 else c
  let c := if c0 &&& 2 != 0 then c ^^^ 0xa9fdca3312 else c
  let c := if c0 &&& 4 != 0 then c ^^^ 0x1bab10e32d else c
  let c := if c0 &&& 8 != 0 then c ^^^ 0x3706b1677a else c
  if c0 &&& 16 != 0 then c ^^^ 0x644d626ffd else c

/-- PSBT.cpp:45 `INPUT_CHARSET`, with the terminating NUL, which `strchr` also finds. -/
def inputCharset : Bytes :=
  [0x30, 0x31, 0x32, 0x33, 0x34, 0x35, 0x36, 0x37, 0x38, 0x39, 0x28, 0x29, 0x5b, 0x5d, 0x2c, 0x27,
   0x2f, 0x2a, 0x61, 0x62, 0x63, 0x64, 0x65, 0x66, 0x67, 0x68, 0x40, 0x3a, 0x24, 0x25, 0x7b, 0x7d,
   0x49, 0x4a, 0x4b, 0x4c, 0x4d, 0x4e, 0x4f, 0x50, 0x51, 0x52, 0x53, 0x54, 0x55, 0x56, 0x57, 0x58,
   0x59, 0x5a, 0x26, 0x2b, 0x2d, 0x2e, 0x3b, 0x3c, 0x3d, 0x3e, 0x3f, 0x21, 0x5e, 0x5f, 0x7c, 0x7e,
   0x69, 0x6a, 0x6b, 0x6c, 0x6d, 0x6e, 0x6f, 0x70, 0x71, 0x72, 0x73, 0x74, 0x75, 0x76, 0x77, 0x78,
   0x79, 0x7a, 0x41, 0x42, 0x43, 0x44, 0x45, 0x46, 0x47, 0x48, 0x60, 0x23, 0x22, 0x5c, 0x20,
   0x00]

/-- PSBT.cpp:48 `CHECKSUM_CHARSET`. -/
def checksumCharset : Bytes :=
  [0x71, 0x70, 0x7a, 0x72, 0x79, 0x39, 0x78, 0x38, 0x67, 0x66, 0x32, 0x74, 0x76, 0x64, 0x77, 0x30,
   0x73, 0x33, 0x6a, 0x6e, 0x35, 0x34, 0x6b, 0x68, 0x63, 0x65, 0x36, 0x6d, 0x75, 0x61, 0x37, 0x6c]

/-- PSBT.cpp:52-56, 62-68: the variables of the loop. -/
structure DescState where
  c : UInt64
  cls : Nat
  clscount : Nat

/-- PSBT.cpp:54-69 one character; `none`: returns 0. -/
def descStep (st : DescState) (ch : UInt8) : Option DescState :=
  if ch ∈ inputCharset then
    let pos := inputCharset.idxOf ch
    let c := polyMod st.c (UInt64.ofNat (pos &&& 31))
    let cls := st.cls * 3 + pos >>> 5
    if st.clscount + 1 = 3 then some ⟨polyMod c (UInt64.ofNat cls), 0, 0⟩
    else some ⟨c, cls, st.clscount + 1⟩
  else none

/-- PSBT.cpp:28-78 `descriptorChecksum`: return value and new contents of `output`. -/
def descriptorChecksum (span output : Bytes) : C (Nat × Bytes) := do
  let output := zeros output.length
  if output.length < 8 then return (0, output)
  else
    match span.foldlM descStep ⟨1, 0, 0⟩ with
    | none => return (0, output)
    | some st => do
      let c := if st.clscount > 0 then polyMod st.c (UInt64.ofNat st.cls) else st.c
      let c := (List.range 8).foldl (fun c _ => polyMod c 0) c
      let c := c ^^^ 1
      let output ← store output 0 (List.replicate 8 0x20)
      let output ← (List.range 8).foldlM (fun (o : Bytes) j => do
        let x ← byteAt checksumCharset ((c >>> UInt64.ofNat (5 * (7 - j))) &&& 31).toNat
        store o j [x]) output
      return (8, output)

/-- PSBT.cpp:81-85 the overload for strings: the characters before the first NUL. -/
def descriptorChecksumString (descriptor : Bytes) : C Bytes := do
  let (_, o) ← descriptorChecksum (cstr descriptor) (zeros 10)
  stringFrom o

end UB
