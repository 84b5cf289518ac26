import Verif.Model.Base

/-
Model of /repo/src/utility/trezor/sha2.c (SHA-256 and SHA-512, non-unrolled build),
hmac.c and pbkdf2.c.

The SHA-256 and SHA-512 halves of these files are the same text up to word size,
constants and the type of the bit counter.  They are modelled once, over a record
`Sha2Code` of exactly those differences, with the two instances below.  Every
definition cites both copies.

Simplifications, for all definitions of this file: `memcpy`/`memzero` on the block
buffer is `put`; the host is little-endian (the `BYTE_ORDER == LITTLE_ENDIAN`
branches); NULL context/digest arguments are not modelled; `static CONFIDENTIAL`
scratch buffers are local; wiping of local variables has no effect on results.
-/

namespace UB

/-- Local variables `a..h` of the transforms. -/
structure Vars (W : Type) where
  (a b c d e f g h : W)
deriving DecidableEq, Repr

/-- What differs between the SHA-256 and SHA-512 halves of sha2.c. -/
structure Sha2Code (W BC : Type) where
  /-- `sizeof(sha2_word32)` / `sizeof(sha2_word64)` -/
  wlen : Nat
  nrounds : Nat
  bigS0 : W → W
  bigS1 : W → W
  smS0 : W → W
  smS1 : W → W
  ch : W → W → W → W
  maj : W → W → W → W
  K : List W
  iv : List W
  /-- word in memory at these bytes (little-endian host) -/
  ofMem : Bytes → W
  /-- bytes of a word in memory -/
  toMem : W → Bytes
  /-- `REVERSE32` / `REVERSE64` -/
  reverse : W → W
  zeroBits : BC
  /-- `bitcount += n` / `ADDINC128(bitcount, n)` -/
  addBits : BC → UInt64 → BC
  /-- low word of the bit count -/
  lowBits : BC → UInt64
  /-- what is stored in `buffer[14]` and `buffer[15]` at the end -/
  lenHi : BC → W
  lenLo : BC → W
  /-- the all-ones-like pad constants `0x5c5c..` and `0x3636..` of hmac.c -/
  opad : W
  ipad : W
  xor : W → W → W
  /-- `g[8]` and `g[15]` in pbkdf2.c -/
  g8 : W
  g15 : W

/-- `memcpy(buf + off, data, data.length)` within the block buffer. -/
def put (buf : Bytes) (off : Nat) (data : Bytes) : Bytes :=
  buf.take off ++ data ++ buf.drop (off + data.length)

/-- SHA256_CTX / SHA512_CTX.  /repo/src/utility/trezor/sha2.h:44-53 -/
structure Sha2Ctx (W BC : Type) where
  state : List W
  bits : BC
  buffer : Bytes
deriving DecidableEq, Repr

namespace Sha2Code
variable {W BC : Type} [Add W] [OfNat W 0] (P : Sha2Code W BC)

/-- `SHA256_BLOCK_LENGTH` / `SHA512_BLOCK_LENGTH`: sixteen words. -/
def blockLen : Nat := 16 * P.wlen

/-- `SHA256_DIGEST_LENGTH` / `SHA512_DIGEST_LENGTH`: eight words. -/
def digestLen : Nat := 8 * P.wlen

/-- `SHA256_SHORT_BLOCK_LENGTH` / `SHA512_SHORT_BLOCK_LENGTH`.
/repo/src/utility/trezor/sha2.c:97-98 -/
def shortLen : Nat := P.blockLen - 2 * P.wlen

/-- One pass of the loop bodies.  /repo/src/utility/trezor/sha2.c:378-388 = 401-410,
683-693 = 706-715 -/
def rnd (v : Vars W) (k w : W) : Vars W :=
  let T1 := v.h + P.bigS1 v.e + P.ch v.e v.f v.g + k + w
  let T2 := P.bigS0 v.a + P.maj v.a v.b v.c
  { h := v.g, g := v.f, f := v.e, e := v.d + T1, d := v.c, c := v.b, b := v.a, a := T1 + T2 }

/-- First loop, pass `j`: `W256[j] = *data++`.  /repo/src/utility/trezor/sha2.c:377-391, 682-696 -/
def pass1 (data : List W) (s : Vars W × List W) (j : Nat) : Vars W × List W :=
  let w := data.getD j 0
  (P.rnd s.1 (P.K.getD j 0) w, s.2.set j w)

/-- Second loop, pass `j`: `W256[j&0x0f] += s1 + W256[(j+9)&0x0f] + s0`.
/repo/src/utility/trezor/sha2.c:393-412, 698-717 -/
def pass2 (s : Vars W × List W) (j : Nat) : Vars W × List W :=
  let s0 := P.smS0 (s.2.getD ((j + 1) % 16) 0)
  let s1 := P.smS1 (s.2.getD ((j + 14) % 16) 0)
  let w := s.2.getD (j % 16) 0 + (s1 + s.2.getD ((j + 9) % 16) 0 + s0)
  (P.rnd s.1 (P.K.getD j 0) w, s.2.set (j % 16) w)

/-- `sha256_Transform` / `sha512_Transform`.  The uninitialised local array `W256[16]`
starts as zeros; every element is written before it is read.
/repo/src/utility/trezor/sha2.c:361-428, 666-733 -/
def transform (st data : List W) : List W :=
  let v : Vars W := ⟨st.getD 0 0, st.getD 1 0, st.getD 2 0, st.getD 3 0,
    st.getD 4 0, st.getD 5 0, st.getD 6 0, st.getD 7 0⟩
  let s := (List.range 16).foldl (P.pass1 data) (v, List.replicate 16 0)
  let s := (List.range' 16 (P.nrounds - 16)).foldl P.pass2 s
  let v := s.1
  [st.getD 0 0 + v.a, st.getD 1 0 + v.b, st.getD 2 0 + v.c, st.getD 3 0 + v.d,
    st.getD 4 0 + v.e, st.getD 5 0 + v.f, st.getD 6 0 + v.g, st.getD 7 0 + v.h]

/-- `sha256_Init` / `sha512_Init`.  /repo/src/utility/trezor/sha2.c:273-280, 581-588 -/
def init : Sha2Ctx W BC := { state := P.iv, bits := P.zeroBits, buffer := zeros P.blockLen }

/-- `memzero(context, sizeof(SHA256_CTX))`. -/
def wiped : Sha2Ctx W BC :=
  { state := List.replicate 8 0, bits := P.zeroBits, buffer := zeros P.blockLen }

/-- The words of the buffer as the host sees them. -/
def hostWords (n : Nat) (buf : Bytes) : List W :=
  (List.range n).map fun j => P.ofMem ((buf.drop (j * P.wlen)).take P.wlen)

/-- Words back to memory. -/
def memWords (ws : List W) : Bytes := ws.flatMap P.toMem

/-- Byte-swap the buffer words in place and run the transform on them.
/repo/src/utility/trezor/sha2.c:451-457, 470-476, 502-509; 756-762, 775-781, 804-811 -/
def swapTransform (c : Sha2Ctx W BC) : Sha2Ctx W BC :=
  let ws := (P.hostWords 16 c.buffer).map P.reverse
  { c with state := P.transform c.state ws, buffer := P.memWords ws }

/-- `usedspace = (bitcount >> 3) % BLOCK_LENGTH`.  /repo/src/utility/trezor/sha2.c:440, 745 -/
def used (b : BC) : Nat := (P.lowBits b >>> 3).toNat % P.blockLen

/-- `len << 3` as a `size_t`. -/
def shl3 (n : Nat) : UInt64 := UInt64.ofNat n <<< 3

/-- The `while (len >= BLOCK_LENGTH)` loop and the left-overs.  `fuel` bounds the passes;
`data.length` always suffices.  /repo/src/utility/trezor/sha2.c:467-485, 772-790 -/
def blocks : Nat → Sha2Ctx W BC → Bytes → Sha2Ctx W BC
  | fuel + 1, c, data =>
    if data.length ≥ P.blockLen then
      let c := P.swapTransform { c with buffer := put c.buffer 0 (data.take P.blockLen) }
      blocks fuel { c with bits := P.addBits c.bits (shl3 P.blockLen) } (data.drop P.blockLen)
    else if data.length > 0 then
      { c with buffer := put c.buffer 0 data, bits := P.addBits c.bits (shl3 data.length) }
    else c
  | 0, c, _ => c

/-- `sha256_Update` / `sha512_Update`.  /repo/src/utility/trezor/sha2.c:432-488, 737-793 -/
def update (c : Sha2Ctx W BC) (data : Bytes) : Sha2Ctx W BC :=
  if data.length = 0 then c
  else
    let usedspace := P.used c.bits
    if usedspace > 0 then
      let freespace := P.blockLen - usedspace
      if data.length ≥ freespace then
        let c := P.swapTransform { c with
          buffer := put c.buffer usedspace (data.take freespace)
          bits := P.addBits c.bits (shl3 freespace) }
        P.blocks data.length c (data.drop freespace)
      else
        { c with
          buffer := put c.buffer usedspace data
          bits := P.addBits c.bits (shl3 data.length) }
    else P.blocks data.length c data

/-- `sha256_Final` / `sha512_Last` + `sha512_Final`: the wiped context and the digest.
/repo/src/utility/trezor/sha2.c:490-542, 795-851 -/
def final (c : Sha2Ctx W BC) : Sha2Ctx W BC × Bytes :=
  let usedspace := P.used c.bits
  let c := { c with buffer := put c.buffer usedspace [0x80] }
  let usedspace := usedspace + 1
  let (c, usedspace) :=
    if usedspace > P.shortLen then
      (P.swapTransform { c with buffer := put c.buffer usedspace (zeros (P.blockLen - usedspace)) }, 0)
    else (c, usedspace)
  let buffer := put c.buffer usedspace (zeros (P.shortLen - usedspace))
  let ws := (P.hostWords 14 buffer).map P.reverse ++ [P.lenHi c.bits, P.lenLo c.bits]
  let state := P.transform c.state ws
  (P.wiped, P.memWords (state.map P.reverse))

/-- `sha256_Raw` / `sha512_Raw`.  /repo/src/utility/trezor/sha2.c:564-569, 873-878 -/
def raw (data : Bytes) : Bytes := (P.final (P.update P.init data)).2

/-! ### hmac.c -/

/-- A `uint32_t` length parameter: only that many bytes of the buffer are looked at. -/
def cut32 (bs : Bytes) : Bytes := bs.take (bs.length % 4294967296)

/-- HMAC_SHA256_CTX / HMAC_SHA512_CTX.  /repo/src/utility/trezor/hmac.h:30-38 -/
structure HmacCtx (W BC : Type) where
  oKeyPad : Bytes
  ctx : Sha2Ctx W BC

/-- Key, hashed if longer than a block, in a zeroed block.
/repo/src/utility/trezor/hmac.c:36-41, 78-86; 111-116, 153-161 -/
def keyBlock (key : Bytes) : Bytes :=
  if key.length > P.blockLen then put (zeros P.blockLen) 0 (P.raw key)
  else put (zeros P.blockLen) 0 key

/-- `ubtc_hmac_sha256_Init` / `ubtc_hmac_sha512_Init`.  /repo/src/utility/trezor/hmac.c:33-49, 108-124 -/
def hmacInit (key : Bytes) : HmacCtx W BC :=
  let k := P.keyBlock (cut32 key)
  { oKeyPad := k.map (· ^^^ 0x5c), ctx := P.update P.init (k.map (· ^^^ 0x36)) }

/-- `ubtc_hmac_sha256_Update` / `_sha512_`.  /repo/src/utility/trezor/hmac.c:51-54, 126-129 -/
def hmacUpdate (h : HmacCtx W BC) (msg : Bytes) : HmacCtx W BC :=
  { h with ctx := P.update h.ctx (cut32 msg) }

/-- `ubtc_hmac_sha256_Final` / `_sha512_`: the tag.  /repo/src/utility/trezor/hmac.c:56-64, 131-139 -/
def hmacFinal (h : HmacCtx W BC) : Bytes :=
  let inner := (P.final h.ctx).2
  let ctx := P.update P.init h.oKeyPad
  let ctx := P.update ctx inner
  (P.final ctx).2

/-- `ubtc_hmac_sha256` / `ubtc_hmac_sha512`.  /repo/src/utility/trezor/hmac.c:66-72, 141-147 -/
def hmac (key msg : Bytes) : Bytes := P.hmacFinal (P.hmacUpdate (P.hmacInit key) msg)

/-- `ubtc_hmac_sha256_prepare` / `_sha512_`: `(opad_digest, ipad_digest)`.
/repo/src/utility/trezor/hmac.c:74-106, 149-181 -/
def hmacPrepare (key : Bytes) : List W × List W :=
  let words := P.hostWords 16 (P.keyBlock (cut32 key))
  let o := words.map fun w => P.xor (P.reverse w) P.opad
  let odig := P.transform P.iv o
  let i := o.map fun w => P.xor (P.xor w P.opad) P.ipad
  (odig, P.transform P.iv i)

/-! ### pbkdf2.c -/

/-- PBKDF2_HMAC_SHA256_CTX / PBKDF2_HMAC_SHA512_CTX.  /repo/src/utility/trezor/pbkdf2.h:30-44 -/
structure PbkdfCtx (W : Type) where
  odig : List W
  idig : List W
  f : List W
  g : List W
  first : Nat
deriving DecidableEq

/-- `pbkdf2_hmac_sha256_Init` / `_sha512_`.  `junk` is the uninitialised block buffer of the
local context.  `blocknr` is byte-swapped and its memory hashed: the four bytes most significant first.
/repo/src/utility/trezor/pbkdf2.c:30-55, 104-130 -/
def pbkdfInit (junk pass salt : Bytes) (blocknr : UInt32) : PbkdfCtx W :=
  let (odig, idig) := P.hmacPrepare pass
  let tail : List W := P.g8 :: List.replicate 6 0 ++ [P.g15]
  let ctx : Sha2Ctx W BC :=
    { state := idig, bits := P.addBits P.zeroBits (shl3 P.blockLen), buffer := junk }
  let ctx := P.update ctx salt
  let ctx := P.update ctx [(blocknr >>> 24).toUInt8, (blocknr >>> 16).toUInt8,
    (blocknr >>> 8).toUInt8, blocknr.toUInt8]
  let digest := (P.final ctx).2
  let g := (P.hostWords 8 digest).map P.reverse ++ tail
  let g := P.transform odig g ++ tail
  { odig, idig, f := g.take 8, g, first := 1 }

/-- One pass of the loop in `pbkdf2_hmac_*_Update`; only the first eight words of `g` change.
/repo/src/utility/trezor/pbkdf2.c:60-64, 135-139 -/
def pbkdfPass (c : PbkdfCtx W) : PbkdfCtx W :=
  let g := P.transform c.idig c.g ++ c.g.drop 8
  let g := P.transform c.odig g ++ g.drop 8
  { c with g, f := List.zipWith P.xor c.f g }

/-- `pbkdf2_hmac_sha256_Update` / `_sha512_`.  /repo/src/utility/trezor/pbkdf2.c:57-67, 132-142 -/
def pbkdfUpdate (c : PbkdfCtx W) (iterations : Nat) : PbkdfCtx W :=
  let c := (List.range' c.first (iterations - c.first)).foldl (fun c _ => P.pbkdfPass c) c
  { c with first := 0 }

/-- `pbkdf2_hmac_sha256_Final` / `_sha512_`.  /repo/src/utility/trezor/pbkdf2.c:69-78, 144-153 -/
def pbkdfFinal (c : PbkdfCtx W) : Bytes := P.memWords (c.f.map P.reverse)

/-- `pbkdf2_hmac_sha256` / `pbkdf2_hmac_sha512`: the key buffer written.
/repo/src/utility/trezor/pbkdf2.c:80-102, 155-177 -/
def pbkdf2 (junk pass salt : Bytes) (iterations keylen : Nat) : Bytes :=
  let lastBlock := if keylen % P.digestLen ≠ 0 then keylen % P.digestLen else P.digestLen
  let count := if keylen % P.digestLen ≠ 0 then keylen / P.digestLen + 1 else keylen / P.digestLen
  (List.range count).flatMap fun i =>
    let digest := P.pbkdfFinal (P.pbkdfUpdate (P.pbkdfInit junk pass salt (UInt32.ofNat (i + 1))) iterations)
    if i + 1 < count then digest else digest.take lastBlock

end Sha2Code

/-- `ROTR32`, `ROTR64`.  /repo/src/utility/trezor/sha2.c:136-138 -/
def ROTR32 (b x : UInt32) : UInt32 := (x >>> b) ||| (x <<< (32 - b))
def ROTR64 (b x : UInt64) : UInt64 := (x >>> b) ||| (x <<< (64 - b))

/-- `REVERSE32`.  /repo/src/utility/trezor/sha2.h:66-70 -/
def REVERSE32 (w : UInt32) : UInt32 :=
  let tmp := (w >>> 16) ||| (w <<< 16)
  ((tmp &&& 0xff00ff00) >>> 8) ||| ((tmp &&& 0x00ff00ff) <<< 8)

/-- `REVERSE64`.  /repo/src/utility/trezor/sha2.h:71-78 -/
def REVERSE64 (w : UInt64) : UInt64 :=
  let tmp := (w >>> 32) ||| (w <<< 32)
  let tmp := ((tmp &&& 0xff00ff00ff00ff00) >>> 8) ||| ((tmp &&& 0x00ff00ff00ff00ff) <<< 8)
  ((tmp &&& 0xffff0000ffff0000) >>> 16) ||| ((tmp &&& 0x0000ffff0000ffff) <<< 16)

/-- `ADDINC128`.  /repo/src/utility/trezor/sha2.c:105-110 -/
def ADDINC128 (w : UInt64 × UInt64) (n : UInt64) : UInt64 × UInt64 :=
  let w0 := w.1 + n
  (w0, if w0 < n then w.2 + 1 else w.2)

/-- Value of a little-endian word in memory. -/
def memNat : Bytes → Nat
  | [] => 0
  | b :: bs => b.toNat + 256 * memNat bs

/-- /repo/src/utility/trezor/sha2.c:179-196 -/
def K256 : List UInt32 :=
  [0x428a2f98, 0x71374491, 0xb5c0fbcf, 0xe9b5dba5, 0x3956c25b, 0x59f111f1, 0x923f82a4, 0xab1c5ed5,
   0xd807aa98, 0x12835b01, 0x243185be, 0x550c7dc3, 0x72be5d74, 0x80deb1fe, 0x9bdc06a7, 0xc19bf174,
   0xe49b69c1, 0xefbe4786, 0x0fc19dc6, 0x240ca1cc, 0x2de92c6f, 0x4a7484aa, 0x5cb0a9dc, 0x76f988da,
   0x983e5152, 0xa831c66d, 0xb00327c8, 0xbf597fc7, 0xc6e00bf3, 0xd5a79147, 0x06ca6351, 0x14292967,
   0x27b70a85, 0x2e1b2138, 0x4d2c6dfc, 0x53380d13, 0x650a7354, 0x766a0abb, 0x81c2c92e, 0x92722c85,
   0xa2bfe8a1, 0xa81a664b, 0xc24b8b70, 0xc76c51a3, 0xd192e819, 0xd6990624, 0xf40e3585, 0x106aa070,
   0x19a4c116, 0x1e376c08, 0x2748774c, 0x34b0bcb5, 0x391c0cb3, 0x4ed8aa4a, 0x5b9cca4f, 0x682e6ff3,
   0x748f82ee, 0x78a5636f, 0x84c87814, 0x8cc70208, 0x90befffa, 0xa4506ceb, 0xbef9a3f7, 0xc67178f2]

/-- /repo/src/utility/trezor/sha2.c:211-252 -/
def K512 : List UInt64 :=
  [0x428a2f98d728ae22, 0x7137449123ef65cd, 0xb5c0fbcfec4d3b2f, 0xe9b5dba58189dbbc,
   0x3956c25bf348b538, 0x59f111f1b605d019, 0x923f82a4af194f9b, 0xab1c5ed5da6d8118,
   0xd807aa98a3030242, 0x12835b0145706fbe, 0x243185be4ee4b28c, 0x550c7dc3d5ffb4e2,
   0x72be5d74f27b896f, 0x80deb1fe3b1696b1, 0x9bdc06a725c71235, 0xc19bf174cf692694,
   0xe49b69c19ef14ad2, 0xefbe4786384f25e3, 0x0fc19dc68b8cd5b5, 0x240ca1cc77ac9c65,
   0x2de92c6f592b0275, 0x4a7484aa6ea6e483, 0x5cb0a9dcbd41fbd4, 0x76f988da831153b5,
   0x983e5152ee66dfab, 0xa831c66d2db43210, 0xb00327c898fb213f, 0xbf597fc7beef0ee4,
   0xc6e00bf33da88fc2, 0xd5a79147930aa725, 0x06ca6351e003826f, 0x142929670a0e6e70,
   0x27b70a8546d22ffc, 0x2e1b21385c26c926, 0x4d2c6dfc5ac42aed, 0x53380d139d95b3df,
   0x650a73548baf63de, 0x766a0abb3c77b2a8, 0x81c2c92e47edaee6, 0x92722c851482353b,
   0xa2bfe8a14cf10364, 0xa81a664bbc423001, 0xc24b8b70d0f89791, 0xc76c51a30654be30,
   0xd192e819d6ef5218, 0xd69906245565a910, 0xf40e35855771202a, 0x106aa07032bbd1b8,
   0x19a4c116b8d2d0c8, 0x1e376c085141ab53, 0x2748774cdf8eeb99, 0x34b0bcb5e19b48a8,
   0x391c0cb3c5c95a63, 0x4ed8aa4ae3418acb, 0x5b9cca4f7763e373, 0x682e6ff3d6b2b8a3,
   0x748f82ee5defb2fc, 0x78a5636f43172f60, 0x84c87814a1f0ab72, 0x8cc702081a6439ec,
   0x90befffa23631e28, 0xa4506cebde82bde9, 0xbef9a3f7b2c67915, 0xc67178f2e372532b,
   0xca273eceea26619c, 0xd186b8c721c0c207, 0xeada7dd6cde0eb1e, 0xf57d4f7fee6ed178,
   0x06f067aa72176fba, 0x0a637dc5a2c898a6, 0x113f9804bef90dae, 0x1b710b35131c471b,
   0x28db77f523047d84, 0x32caab7b40c72493, 0x3c9ebe0a15c9bebc, 0x431d67c49c100d4c,
   0x4cc5d4becb3e42b6, 0x597f299cfc657e2a, 0x5fcb6fab3ad6faec, 0x6c44198c4a475817]

/-- The SHA-256 half of sha2.c, hmac.c and pbkdf2.c.  Macros /repo/src/utility/trezor/sha2.c:136-158,
initial value 199-208, length words 519-520; pads hmac.c:95-103; `g` pbkdf2.c:39-40. -/
def sha256Code : Sha2Code UInt32 UInt64 where
  wlen := 4
  nrounds := 64
  bigS0 x := ROTR32 2 x ^^^ ROTR32 13 x ^^^ ROTR32 22 x
  bigS1 x := ROTR32 6 x ^^^ ROTR32 11 x ^^^ ROTR32 25 x
  smS0 x := ROTR32 7 x ^^^ ROTR32 18 x ^^^ (x >>> 3)
  smS1 x := ROTR32 17 x ^^^ ROTR32 19 x ^^^ (x >>> 10)
  ch x y z := (x &&& y) ^^^ ((~~~x) &&& z)
  maj x y z := (x &&& y) ^^^ (x &&& z) ^^^ (y &&& z)
  K := K256
  iv := [0x6a09e667, 0xbb67ae85, 0x3c6ef372, 0xa54ff53a, 0x510e527f, 0x9b05688c, 0x1f83d9ab, 0x5be0cd19]
  ofMem bs := UInt32.ofNat (memNat bs)
  toMem w := [w.toUInt8, (w >>> 8).toUInt8, (w >>> 16).toUInt8, (w >>> 24).toUInt8]
  reverse := REVERSE32
  zeroBits := 0
  addBits b n := b + n
  lowBits b := b
  lenHi b := (b >>> 32).toUInt32
  lenLo b := (b &&& 0xffffffff).toUInt32
  opad := 0x5c5c5c5c
  ipad := 0x36363636
  xor x y := x ^^^ y
  g8 := 0x80000000
  g15 := (64 + 32) * 8

/-- The SHA-512 half of sha2.c, hmac.c and pbkdf2.c.  Macros /repo/src/utility/trezor/sha2.c:136-162,
initial value 255-264, length words 825-827; pads hmac.c:170-178; `g` pbkdf2.c:113-114. -/
def sha512Code : Sha2Code UInt64 (UInt64 × UInt64) where
  wlen := 8
  nrounds := 80
  bigS0 x := ROTR64 28 x ^^^ ROTR64 34 x ^^^ ROTR64 39 x
  bigS1 x := ROTR64 14 x ^^^ ROTR64 18 x ^^^ ROTR64 41 x
  smS0 x := ROTR64 1 x ^^^ ROTR64 8 x ^^^ (x >>> 7)
  smS1 x := ROTR64 19 x ^^^ ROTR64 61 x ^^^ (x >>> 6)
  ch x y z := (x &&& y) ^^^ ((~~~x) &&& z)
  maj x y z := (x &&& y) ^^^ (x &&& z) ^^^ (y &&& z)
  K := K512
  iv := [0x6a09e667f3bcc908, 0xbb67ae8584caa73b, 0x3c6ef372fe94f82b, 0xa54ff53a5f1d36f1,
   0x510e527fade682d1, 0x9b05688c2b3e6c1f, 0x1f83d9abfb41bd6b, 0x5be0cd19137e2179]
  ofMem bs := UInt64.ofNat (memNat bs)
  toMem w := [w.toUInt8, (w >>> 8).toUInt8, (w >>> 16).toUInt8, (w >>> 24).toUInt8,
    (w >>> 32).toUInt8, (w >>> 40).toUInt8, (w >>> 48).toUInt8, (w >>> 56).toUInt8]
  reverse := REVERSE64
  zeroBits := (0, 0)
  addBits := ADDINC128
  lowBits b := b.1
  lenHi b := b.2
  lenLo b := b.1
  opad := 0x5c5c5c5c5c5c5c5c
  ipad := 0x3636363636363636
  xor x y := x ^^^ y
  g8 := 0x8000000000000000
  g15 := (128 + 64) * 8

end UB
