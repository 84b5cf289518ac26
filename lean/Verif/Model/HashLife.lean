import Verif.Model.Hash

/-
Hash objects over their lifetime: any calls of `begin`, `beginHMAC`, `write`, `end` and `endHMAC` in any order.
/repo/src/Hash.h, /repo/src/Hash.cpp.  (Model/Hash has objects that are constructed, written to and ended once.)
-/

namespace UB

/-- The classes that keep an `HMAC_SHA256_CTX`: SHA256 (and TaggedHash), Hash160, DoubleSha differ in `end`. -/
inductive End256 where
  | plain
  | hash160
  | double

/-- A variable of one of the hash classes.  Hash.h:37-46, 62-73, 78-81, 108-111, 126-129, 144-155 -/
inductive HashVar where
  | rmd (c : Rmd160.Ctx)
  | s256 (e : End256) (h : Sha2Code.HmacCtx UInt32 UInt64)
  | s512 (h : Sha2Code.HmacCtx UInt64 (UInt64 × UInt64))

/-- Calls on a hash object.  `baseBegin` is `begin()` called through a `HashAlgorithm *`. -/
inductive HashOp where
  | start
  | startHMAC (key : Bytes)
  | baseBegin
  | write (data : Bytes)
  | fin
  | finHMAC

namespace HashVar

/-- Constructors: `begin()` is called; the padded key is not initialised (`junk`).  Hash.h:39, 64, 146 -/
def newRMD160 : HashVar := rmd Rmd160.init
def new256 (e : End256) (junk : Bytes) : HashVar := s256 e { oKeyPad := junk, ctx := sha256Code.init }
def new512 (junk : Bytes) : HashVar := s512 { oKeyPad := junk, ctx := sha512Code.init }

/-- `TaggedHash::TaggedHash`.  Hash.cpp:72-78 -/
def newTagged (junk tag : Bytes) : HashVar :=
  s256 .plain { oKeyPad := junk, ctx := sha256Code.update (sha256Code.update sha256Code.init (sha256 tag)) (sha256 tag) }

/-- `memzero(ctx, sizeof(RIPEMD160_CTX))`.  ripemd160.c:331 -/
def rmdWiped : Rmd160.Ctx := { total0 := 0, total1 := 0, state := List.replicate 5 0, buffer := zeros 64 }

/-- The digest of `end` from that of SHA-256.  Hash.cpp:114-117, 140-145, 164-169 -/
def digest : End256 → Bytes → Bytes
  | .plain, h => h
  | .hash160, h => rmd160 h
  | .double, h => sha256 h

/-- One call: the object afterwards, and what `end` and `endHMAC` write.  RMD160 has no HMAC functions (`none`, unchanged).
Hash.cpp:39-54, 99-121, 140-145, 164-169, 187-209; hmac.c:33-64, 108-139; `begin` leaves the padded key alone, `end` wipes the inner context,
`endHMAC` everything; `HashAlgorithm::begin` is not virtual and empty (Hash.h:19) -/
def step : HashVar → HashOp → HashVar × Option Bytes
  | rmd _, .start => (rmd Rmd160.init, none)
  | rmd c, .write d => (rmd (Rmd160.update c d), none)
  | rmd c, .fin => (rmd rmdWiped, some (Rmd160.final c))
  | rmd c, .startHMAC _ => (rmd c, none)
  | rmd c, .finHMAC => (rmd c, none)
  | rmd c, .baseBegin => (rmd c, none)
  | s256 e h, .start => (s256 e { h with ctx := sha256Code.init }, none)
  | s256 e _, .startHMAC key => (s256 e (sha256Code.hmacInit key), none)
  | s256 e h, .write d => (s256 e { h with ctx := sha256Code.update h.ctx d }, none)
  | s256 e h, .fin => (s256 e { h with ctx := sha256Code.wiped }, some (digest e (sha256Code.final h.ctx).2))
  | s256 e h, .finHMAC => (s256 e { oKeyPad := zeros 64, ctx := sha256Code.wiped }, some (sha256Code.hmacFinal h))
  | s256 e h, .baseBegin => (s256 e h, none)
  | s512 h, .start => (s512 { h with ctx := sha512Code.init }, none)
  | s512 _, .startHMAC key => (s512 (sha512Code.hmacInit key), none)
  | s512 h, .write d => (s512 { h with ctx := sha512Code.update h.ctx d }, none)
  | s512 h, .fin => (s512 { h with ctx := sha512Code.wiped }, some (sha512Code.final h.ctx).2)
  | s512 h, .finHMAC => (s512 { oKeyPad := zeros 128, ctx := sha512Code.wiped }, some (sha512Code.hmacFinal h))
  | s512 h, .baseBegin => (s512 h, none)

/-- Calls one after the other: the object afterwards, and what was written. -/
def run (v : HashVar) : List HashOp → HashVar × List Bytes
  | [] => (v, [])
  | op :: ops =>
    let s := v.step op
    let r := s.1.run ops
    (r.1, s.2.toList ++ r.2)

end HashVar

end UB
