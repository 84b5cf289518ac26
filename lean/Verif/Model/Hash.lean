import Verif.Model.Ripemd

/-
Model of /repo/src/Hash.cpp and of the classes of /repo/src/Hash.h, and of
/repo/src/utility/trezor/rfc6979.c.

`HashAlgorithm::begin` is not virtual and empty, so the call `algo->begin()` in
`hashData` does nothing; the contexts have been set up by the constructors.
-/

namespace UB

/-- A hash object of Hash.h: the context inside and which `end` it has.  `begin`/`write`
of SHA256, Hash160, DoubleSha and TaggedHash are those of SHA256. -/
inductive HashObj where
  | rmd (c : Rmd160.Ctx)
  | sha256 (c : Sha2Ctx UInt32 UInt64)
  | hash160 (c : Sha2Ctx UInt32 UInt64)
  | double (c : Sha2Ctx UInt32 UInt64)
  | sha512 (c : Sha2Ctx UInt64 (UInt64 × UInt64))

namespace HashObj

/-- `RMD160::write`, `SHA256::write`, `SHA512::write`.  /repo/src/Hash.cpp:42-45, 105-108, 193-196 -/
def write (h : HashObj) (data : Bytes) : HashObj :=
  match h with
  | rmd c => rmd (Rmd160.update c data)
  | sha256 c => sha256 (sha256Code.update c data)
  | hash160 c => hash160 (sha256Code.update c data)
  | double c => double (sha256Code.update c data)
  | sha512 c => sha512 (sha512Code.update c data)

/-- `write(uint8_t b)`.  /repo/src/Hash.cpp:46-50, 109-113, 197-201 -/
def writeByte (h : HashObj) (b : UInt8) : HashObj := h.write [b]

end HashObj

/-- Constructors (`begin()` in the constructor of RMD160, SHA256 and SHA512).
/repo/src/Hash.h:42, 71, 152 -/
def newRMD160 : HashObj := .rmd Rmd160.init
def newSHA256 : HashObj := .sha256 sha256Code.init
def newHash160 : HashObj := .hash160 sha256Code.init
def newDoubleSha : HashObj := .double sha256Code.init
def newSHA512 : HashObj := .sha512 sha512Code.init

/-- `hashData` for RMD160: `rmd160(data, len, hash)`.  /repo/src/Hash.cpp:11-15, 25-28 -/
def rmd160 (data : Bytes) : Bytes := Rmd160.final (Rmd160.update Rmd160.init data)

/-- `sha256(data, len, hash)`.  /repo/src/Hash.cpp:58-61 -/
def sha256 (data : Bytes) : Bytes := (sha256Code.final (sha256Code.update sha256Code.init data)).2

/-- `end`.  /repo/src/Hash.cpp:51-54, 114-117, 140-145, 164-169, 202-205 -/
def HashObj.fin : HashObj → Bytes
  | .rmd c => Rmd160.final c
  | .sha256 c => (sha256Code.final c).2
  | .hash160 c => rmd160 (sha256Code.final c).2
  | .double c => UB.sha256 (sha256Code.final c).2
  | .sha512 c => (sha512Code.final c).2

/-- `hashData`.  /repo/src/Hash.cpp:11-15 -/
def hashData (algo : HashObj) (data : Bytes) : Bytes := (algo.write data).fin

/-- `sha512`, `hash160`, `doubleSha`.  /repo/src/Hash.cpp:173-176, 126-129, 150-153 -/
def sha512 (data : Bytes) : Bytes := hashData newSHA512 data
def hash160 (data : Bytes) : Bytes := hashData newHash160 data
def doubleSha (data : Bytes) : Bytes := hashData newDoubleSha data

/-- `TaggedHash::TaggedHash`.  /repo/src/Hash.cpp:72-78 -/
def newTaggedHash (tag : Bytes) : HashObj :=
  let th := sha256 tag
  ((newSHA256.write th).write th)

/-- `tagged_hash`.  /repo/src/Hash.cpp:80-83 -/
def taggedHash (tag data : Bytes) : Bytes := hashData (newTaggedHash tag) data

/-- `sha256Hmac`, `sha512Hmac`.  /repo/src/Hash.cpp:94-97, 211-214 -/
def sha256Hmac (key data : Bytes) : Bytes := sha256Code.hmac key data
def sha512Hmac (key data : Bytes) : Bytes := sha512Code.hmac key data

/-! ### rfc6979.c -/

/-- `rfc6979_state`.  /repo/src/utility/trezor/rfc6979.h -/
structure Rfc6979 where
  v : Bytes
  k : Bytes
deriving DecidableEq

namespace Rfc6979

/-- `init_rfc6979`.  /repo/src/utility/trezor/rfc6979.c:30-54 -/
def init (priv hash : Bytes) : Rfc6979 :=
  let bx := priv.take 32 ++ hash.take 32
  let v : Bytes := List.replicate 32 1
  let k : Bytes := List.replicate 32 0
  let buf := v ++ [0x00] ++ bx
  let k := sha256Code.hmac k buf
  let v := sha256Code.hmac k v
  let buf := v ++ [0x01] ++ bx
  let k := sha256Code.hmac k buf
  let v := sha256Code.hmac k v
  { v, k }

/-- `generate_rfc6979`: the random bytes and the next state.
/repo/src/utility/trezor/rfc6979.c:57-68 -/
def generate (s : Rfc6979) : Bytes × Rfc6979 :=
  let v := sha256Code.hmac s.k s.v
  let buf := v ++ [0x00]
  let k := sha256Code.hmac s.k buf
  let v := sha256Code.hmac k v
  (buf.take 32, { v, k })

end Rfc6979

end UB
