import Verif.Model.Stream

/-
Model of the signature containers in Bitcoin.cpp:98-368 (DER and compact encodings, Schnorr signatures).
-/

namespace UB

/-- Bitcoin.cpp:218-231 and 232-245, the loop of `rlen` and `slen`; `len` starts at 33. -/
def intLenLoop : Bytes → Nat → Nat
  | [], len => len
  | b :: bs, len => if b > 0 then (if b < 0x80 then len - 1 else len) else intLenLoop bs (len - 1)

/-- Bitcoin.cpp:218-245 `rlen`, `slen`. -/
def intLen (x : Bytes) : Nat := intLenLoop x 33

/-- Bitcoin.h:413-446 `class Signature` with its `Streamable` members; `r` and `s` have 32 bytes. -/
structure Sig where
  status : Status := .done
  bytesParsed : Nat := 0
  tot0 : UInt8 := 0
  tot1 : UInt8 := 0
  tot2 : UInt8 := 0
  r : Bytes := zeros 32
  s : Bytes := zeros 32
  index : UInt8 := 0
deriving DecidableEq, Repr

namespace Sig

/-- Bitcoin.cpp:246-248 `length`. -/
def length (g : Sig) : Nat := intLen g.r + intLen g.s + 6

/-- Bitcoin.cpp:262-266 and 270-274: copy the significant bytes of a number to `bytes+off`; with 33 content bytes the first
one stays as it is (zero). -/
def putInt (b : Bytes) (off : Nat) (x : Bytes) : C Bytes :=
  if intLen x = 33 then do store b (off + 1) (← load x 0 32)
  else do store b off (← load x (32 - intLen x) (intLen x))

/-- Bitcoin.cpp:254-276 `der`: return value and new contents of the buffer. -/
def der (g : Sig) (bytes : Bytes) : C (Nat × Bytes) := do
  let b := zeros bytes.length
  let rl := intLen g.r
  let sl := intLen g.s
  let b ← store b 0 [0x30]
  let b ← store b 1 [UInt8.ofNat (4 + rl + 2 + sl - 2)]
  let b ← store b 2 [0x02]
  let b ← store b 3 [UInt8.ofNat rl]
  let b ← putInt b 4 g.r
  let b ← store b (4 + rl) [0x02]
  let b ← store b (4 + rl + 1) [UInt8.ofNat sl]
  let b ← putInt b (4 + rl + 2) g.s
  return (4 + rl + 2 + sl, b)

/-- Bitcoin.cpp:206-216 `to_stream`. -/
def toStream (g : Sig) (cap : Option Nat) (offset : Nat) : C Bytes := do
  let (_, arr) ← g.der (zeros 72)
  let s : Ser := ⟨cap, []⟩
  let s ← s.emit arr 0 g.length offset
  return s.out

/-- A `from_stream` call in progress: object, `bytes_read`, stream, and whether it has returned. -/
structure Run where
  g : Sig
  br : Nat
  st : PStream
  stop : Bool := false
deriving DecidableEq, Repr

/-- The statement
`if(stream->available() && cond && bytes_parsed+bytes_read < lim){ c = stream->read(); bytes_read++; ... }`
where `f` is what is done with the byte; `none` is `status = PARSING_FAILED; return bytes_read;`. -/
def Run.byte (x : Run) (cond : Sig → Bool) (lim : Sig → Nat) (f : Sig → UInt8 → Option Sig) : Run :=
  if x.stop then x
  else if x.st.avail && cond x.g && decide (x.g.bytesParsed + x.br < lim x.g) then
    let (c, st) := x.st.readByte
    match f x.g c with
    | some g => { g := g, br := x.br + 1, st := st }
    | none => { g := { x.g with status := .failed }, br := x.br + 1, st := st, stop := true }
  else x

/-- Bitcoin.cpp:170-173 and 191-194, the loop
`while(stream->available() && pos < base+tot){ x[pos-base+32-tot] = stream->read(); bytes_read++; }`
for `x` being `r` or `s`: new contents of the array, bytes read, rest of the stream. -/
def fillInt (base tot : Nat) (x : Bytes) (pos : Nat) (st : PStream) : C Bytes × Nat × PStream :=
  let (bs, st) := st.readN (base + tot - pos)
  (if bs = [] then .ok x else if pos + 32 < base + tot then .ub else store x (pos + 32 - (base + tot)) bs, bs.length, st)

/-- Bitcoin.cpp:170-174: the bytes of `r` and the check of their number. -/
def Run.fillR (x : Run) : Run :=
  if x.stop then x
  else
    let tot := x.g.tot1.toNat
    match fillInt 4 tot x.g.r (x.g.bytesParsed + x.br) x.st with
    | (.ub, _, st) => { g := { x.g with status := .ub }, br := 0, st := st, stop := true }
    | (.ok r, n, st) =>
      let g := { x.g with r := r }
      if intLen r ≠ tot then { g := { g with status := .failed }, br := x.br + n, st := st, stop := true }
      else { g := g, br := x.br + n, st := st }

/-- Bitcoin.cpp:191-195: the bytes of `s` and the check of their number. -/
def Run.fillS (x : Run) : Run :=
  if x.stop then x
  else
    let tot := x.g.tot2.toNat
    match fillInt (4 + x.g.tot1.toNat + 2) tot x.g.s (x.g.bytesParsed + x.br) x.st with
    | (.ub, _, st) => { g := { x.g with status := .ub }, br := 0, st := st, stop := true }
    | (.ok s, n, st) =>
      let g := { x.g with s := s }
      if intLen s ≠ tot then { g := { g with status := .failed }, br := x.br + n, st := st, stop := true }
      else { g := g, br := x.br + n, st := st }

/-- Bitcoin.cpp:196-201. -/
def Run.finish (x : Run) : Sig × Nat × PStream :=
  if x.stop then (x.g, x.br, x.st)
  else
    let st := if x.g.bytesParsed + x.br = 4 + x.g.tot1.toNat + 2 + x.g.tot2.toNat then .done else x.g.status
    ({ x.g with status := st, bytesParsed := x.g.bytesParsed + x.br }, x.br, x.st)

/-- Bitcoin.cpp:132-142: the state in which a `from_stream` call starts reading. -/
def start (g : Sig) : Sig :=
  let g := if g.status = .done then { g with bytesParsed := 0, tot0 := 0, tot1 := 0, tot2 := 0, r := zeros 32, s := zeros 32 } else g
  { g with status := .incomplete }

/-- Bitcoin.cpp:122-204 `from_stream`: new object, return value, rest of the stream. -/
def fromStream (g : Sig) (st : PStream) : Sig × Nat × PStream :=
  if g.status = .failed ∨ g.status = .ub then (g, 0, st)
  else
    let x : Run := { g := g.start, br := 0, st := st }
    let x := x.byte (fun _ => true) (fun _ => 1) fun g c => if c ≠ 0x30 then none else some g
    let x := x.byte (fun _ => true) (fun _ => 2) fun g c => if c > 70 then none else some { g with tot0 := c }
    let x := x.byte (fun _ => true) (fun _ => 3) fun g c => if c ≠ 0x02 then none else some g
    let x := x.byte (fun _ => true) (fun _ => 4) fun g c => if c > 33 then none else some { g with tot1 := c }
    let x := x.byte (fun g => g.tot1 == 33) (fun _ => 5) fun g c => if c ≠ 0 then none else some g
    let x := x.fillR
    let x := x.byte (fun _ => true) (fun g => 4 + g.tot1.toNat + 1) fun g c => if c ≠ 0x02 then none else some g
    let x := x.byte (fun _ => true) (fun g => 4 + g.tot1.toNat + 2) fun g c => if c > 33 then none else some { g with tot2 := c }
    let x := x.byte (fun g => g.tot2 == 33) (fun g => 4 + g.tot1.toNat + 3) fun g c => if c ≠ 0 then none else some g
    let x := x.fillS
    x.finish

/-- Bitcoin.cpp:250-253 `fromDer`. -/
def fromDer (g : Sig) (raw : Bytes) : Sig × Nat :=
  let (g, n, _) := g.fromStream { bytes := raw }
  (g, n)

/-- Bitcoin.cpp:277-293 `bin`: new contents of the array. -/
def bin (g : Sig) (arr : Bytes) : C Bytes := do
  let len := arr.length
  let a ← store arr 0 (← load g.r 0 (min len 32))
  let a ← if len > 32 then store a 32 (← load g.s 0 (min (len - 32) 32)) else pure a
  if len > 64 then store a 64 [g.index] else pure a

/-- Bitcoin.cpp:294-310 `fromBin`. -/
def fromBin (g : Sig) (arr : Bytes) : C Sig := do
  let len := arr.length
  let r ← store g.r 0 (← load arr 0 (min len 32))
  let s ← if len > 32 then store g.s 0 (← load arr 32 (min (len - 32) 32)) else pure g.s
  let index ← if len > 64 then do pure ((← load arr 64 1).getD 0 0) else pure g.index
  return { g with r := r, s := s, index := index }

end Sig

/-- Bitcoin.h:452-478 `class SchnorrSignature`. -/
structure SchnorrSig where
  status : Status := .done
  bytesParsed : Nat := 0
  r : Bytes := zeros 32
  s : Bytes := zeros 32
deriving DecidableEq, Repr

namespace SchnorrSig

/-- Bitcoin.cpp:330-354 `from_stream`: new object, return value, rest of the stream. -/
def fromStream (g : SchnorrSig) (st : PStream) : SchnorrSig × Nat × PStream :=
  if g.status = .failed ∨ g.status = .ub then (g, 0, st)
  else
    let g := if g.status = .done then { g with bytesParsed := 0, r := zeros 32, s := zeros 32 } else g
    let g := { g with status := .incomplete }
    let (b1, st) := st.readN (32 - g.bytesParsed)
    match (if b1 = [] then C.ok g.r else store g.r g.bytesParsed b1) with
    | .ub => ({ g with status := .ub }, 0, st)
    | .ok r =>
      let pos := g.bytesParsed + b1.length
      let (b2, st) := st.readN (64 - pos)
      match (if b2 = [] then C.ok g.s else if pos < 32 then .ub else store g.s (pos - 32) b2) with
      | .ub => ({ g with r := r, status := .ub }, 0, st)
      | .ok s =>
        let br := b1.length + b2.length
        let status := if g.bytesParsed + br = 64 then .done else g.status
        ({ g with r := r, s := s, status := status, bytesParsed := g.bytesParsed + br }, br, st)

/-- Bitcoin.cpp:356-368 `to_stream`. -/
def toStream (g : SchnorrSig) (cap : Option Nat) (offset : Nat) : C Bytes := do
  let s : Ser := ⟨cap, []⟩
  let s ← s.emit (g.r ++ g.s) 0 64 offset
  return s.out

end SchnorrSig

end UB
