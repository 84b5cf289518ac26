import Verif.Spec.Sha2

/-
RFC 6979, section 3.2, with HMAC-SHA-256 and a 256 bit group order: the stream of
nonce candidates.
-/

namespace UB.Spec

/-- Steps b-g from `int2octets(x)` and `bits2octets(h1)`: `(K, V)`. -/
def drbgInit (x h : Bytes) : Bytes × Bytes :=
  let v : Bytes := List.replicate 32 0x01
  let k : Bytes := List.replicate 32 0x00
  let k := hmacSha256 k (v ++ [0x00] ++ x ++ h)
  let v := hmacSha256 k v
  let k := hmacSha256 k (v ++ [0x01] ++ x ++ h)
  (k, hmacSha256 k v)

/-- State after `i` rejected candidates (step h.3). -/
def drbgState (x h : Bytes) : Nat → Bytes × Bytes
  | 0 => drbgInit x h
  | i + 1 =>
    let s := drbgState x h i
    let t := hmacSha256 s.1 s.2
    let k := hmacSha256 s.1 (t ++ [0x00])
    (k, hmacSha256 k t)

/-- The candidate number `i` (step h.2; the order has 256 bits, so one HMAC is enough). -/
def drbgCandidate (x h : Bytes) (i : Nat) : Bytes :=
  let s := drbgState x h i
  hmacSha256 s.1 s.2

/-- The order of secp256k1 (SEC 2, 2.4.1). -/
def secp256k1Order : Nat := 0xFFFFFFFFFFFFFFFFFFFFFFFFFFFFFFFEBAAEDCE6AF48A03BBFD25E8CD0364141

/-- RFC 6979 candidates for the secret octets `x` and a 256 bit digest. -/
def rfc6979Candidate (x digest : Bytes) (i : Nat) : Bytes :=
  drbgCandidate x (beBytes 32 (beNat digest % secp256k1Order)) i

end UB.Spec
