import Verif.Model.Conversion

/-
Model of the byte streams in BaseClasses.h / BaseClasses.cpp.
-/

namespace UB

/-- BaseClasses.h:16-20 `parse_status`, plus `ub` for a parser that has executed undefined
behaviour (nothing is claimed about it afterwards; like `failed` it is absorbing). -/
inductive Status where
  | done
  | incomplete
  | failed
  | ub
deriving DecidableEq, Repr

/-- BaseClasses.h:10-14 `encoding_format`. -/
inductive Format where
  | raw
  | hex
deriving DecidableEq, Repr

/-! ### The parse stream as written -/

/-- BaseClasses.h:35-50 `ParseByteStream`: members `buf` (with `len = buf.length`), `cursor`, `format`.
The member `last` (only read by `getLast`, which no parser in the model calls) is left out. -/
structure ParseByteStream where
  buf : Bytes
  cursor : Nat := 0
  format : Format := .raw
deriving DecidableEq, Repr

namespace ParseByteStream

/-- BaseClasses.cpp:37-43 `available`. -/
def available (s : ParseByteStream) : Nat :=
  match s.format with
  | .hex => (s.buf.length - s.cursor) / 2
  | .raw => s.buf.length - s.cursor

/-- BaseClasses.cpp:44-64 `read()`: `none` stands for -1. In HEX format the guard is
`cursor < len-1` on `size_t`, so with `len == 0` the buffer is read out of bounds. -/
def read (s : ParseByteStream) : C (Option UInt8 × ParseByteStream) :=
  match s.format with
  | .hex =>
    if s.buf.length = 0 ∨ s.cursor < s.buf.length - 1 then
      match s.buf[s.cursor]?, s.buf[s.cursor + 1]? with
      | some a, some b =>
        let c1 := hexToVal a
        let c2 := hexToVal b
        if c1 < 0x10 ∧ c2 < 0x10 then
          .ok (some ((c1 <<< 4) + c2), { s with cursor := s.cursor + 2 })
        else .ok (none, s)
      | _, _ => .ub
    else .ok (none, s)
  | .raw =>
    match s.buf[s.cursor]? with
    | some c => .ok (some c, { s with cursor := s.cursor + 1 })
    | none => .ok (none, s)

end ParseByteStream

/-! ### The parse stream as seen by a parser -/

/-- What a parser can observe of a parse stream: the bytes `read()` will deliver, and whether the
stream then is exhausted (`available() == 0`) or stuck in front of two characters which are not hex
digits (`available() > 0`, every `read()` returns -1 and does not advance).
`Verif/Props/Stream.lean` proves that `ParseByteStream` behaves like this. -/
structure PStream where
  bytes : Bytes
  stuck : Bool := false
deriving DecidableEq, Repr

namespace PStream

/-- `available() > 0`. -/
def avail (s : PStream) : Bool := s.stuck || !s.bytes.isEmpty

/-- `read()`; `none` stands for -1. -/
def read (s : PStream) : Option UInt8 × PStream :=
  match s.bytes with
  | [] => (none, s)
  | b :: bs => (some b, { s with bytes := bs })

/-- `(uint8_t) read()`: -1 becomes 0xFF. -/
def readByte (s : PStream) : UInt8 × PStream :=
  match s.bytes with
  | [] => (0xFF, s)
  | b :: bs => (b, { s with bytes := bs })

/-- The loop `while(s->available() && i < n){ x[i] = s->read(); i++; }` as the list of bytes
obtained in at most `n` rounds: a stuck stream keeps delivering (uint8_t)(-1). -/
def readN (s : PStream) (n : Nat) : Bytes × PStream :=
  (s.bytes.take n ++ (if s.stuck then List.replicate (n - s.bytes.length) 0xFF else []),
   { s with bytes := s.bytes.drop n })

end PStream

/-! ### The serialize stream -/

/-- What a serializer sees of a `SerializeStream` while one `to_stream` call runs: how many more
bytes it will accept (`none`: never full, as `HashAlgorithm`, Hash.h, whose `available()` is the
constant 100) and the bytes this call has written so far (`bytes_written` is their number). -/
structure Ser where
  cap : Option Nat
  out : Bytes := []
deriving DecidableEq, Repr

namespace Ser

/-- `s->available()`. -/
def avail (s : Ser) : Bool := s.cap != some 0

/-- How many of `n` bytes the stream will still accept. -/
def room (s : Ser) (n : Nat) : Nat :=
  match s.cap with
  | none => n
  | some c => min c n

/-- Record bytes written through the stream. -/
def push (s : Ser) (bs : Bytes) : Ser :=
  ⟨s.cap.map (· - bs.length), s.out ++ bs⟩

/-- The loop
`while(s->available() && bytes_written+offset < hi){ s->write(src[bytes_written+offset-lo]); bytes_written++; }`
which all `to_stream` methods are built from; reading `src` out of bounds is `ub`. -/
def emit (s : Ser) (src : Bytes) (lo hi offset : Nat) : C Ser :=
  let p := s.out.length + offset
  let n := s.room (hi - p)
  if n = 0 then .ok s
  else if p < lo then .ub
  else do
    let bs ← load src (p - lo) n
    return s.push bs

/-- The statement
`if(s->available() && bytes_written+offset < hi){ bytes_written += s->serialize(&x, bytes_written+offset-lo); }`
for a sub-object whose `to_stream` is `f`. -/
def emitObj (s : Ser) (f : Option Nat → Nat → C Bytes) (lo hi offset : Nat) : C Ser :=
  let p := s.out.length + offset
  if s.avail ∧ p < hi then
    if p < lo then .ub
    else do
      let bs ← f s.cap (p - lo)
      return s.push bs
  else .ok s

/-- The statement
`if(s->available() && bytes_written+offset < hi){ s->write(src[bytes_written+offset-lo]); bytes_written++; }`:
at most one byte. -/
def emitOne (s : Ser) (src : Bytes) (lo hi offset : Nat) : C Ser :=
  let p := s.out.length + offset
  if s.avail ∧ p < hi then
    if p < lo then .ub
    else do
      let bs ← load src (p - lo) 1
      return s.push bs
  else .ok s

end Ser

/-- BaseClasses.h `SerializeByteStream`: members `buf` (with `len = buf.length`), `cursor`, `format`. -/
structure SerializeByteStream where
  buf : Bytes
  cursor : Nat := 0
  format : Format := .raw
deriving DecidableEq, Repr

namespace SerializeByteStream

/-- BaseClasses.cpp:81-88 constructors: the buffer is zeroed. -/
def init (len : Nat) (format : Format) : SerializeByteStream := ⟨zeros len, 0, format⟩

/-- BaseClasses.cpp:89-95 `available`. -/
def available (s : SerializeByteStream) : Nat :=
  match s.format with
  | .hex => (s.buf.length - s.cursor) / 2
  | .raw => s.buf.length - s.cursor

/-- BaseClasses.cpp:96-118 `write(uint8_t b)`. -/
def write (s : SerializeByteStream) (b : UInt8) : SerializeByteStream × Nat :=
  if s.available > 0 then
    match s.format with
    | .hex =>
      let buf := s.buf.set s.cursor (hexDigit ((b >>> 4) &&& 0x0F))
      let buf := buf.set (s.cursor + 1) (hexDigit (b &&& 0x0F))
      ({ s with buf := buf, cursor := s.cursor + 2 }, 1)
    | .raw => ({ s with buf := s.buf.set s.cursor b, cursor := s.cursor + 1 }, 1)
  else (s, 0)

/-- BaseClasses.cpp:119-126 `write(arr, length)`. -/
def writeAll (s : SerializeByteStream) : Bytes → SerializeByteStream × Nat
  | [] => (s, 0)
  | b :: bs =>
    if s.available > 0 then
      let r := (s.write b).1.writeAll bs
      (r.1, r.2 + 1)
    else (s, 0)

end SerializeByteStream

/-- BaseClasses.cpp:81-127,167-170 `Streamable::serialize(arr, len, offset, format)` on top of a
`to_stream`: the buffer is zeroed, then filled with what was written (in HEX two characters per
byte, at most `len/2` bytes); returns the count of bytes and the new buffer. -/
def serialize (toStream : Option Nat → Nat → C Bytes) (len offset : Nat) (format : Format) :
    C (Nat × Bytes) :=
  match format with
  | .raw => do
    let out ← toStream (some len) offset
    return (out.length, out ++ zeros (len - out.length))
  | .hex => do
    let out ← toStream (some (len / 2)) offset
    return (out.length, hexChars out ++ zeros (len - 2 * out.length))

end UB
