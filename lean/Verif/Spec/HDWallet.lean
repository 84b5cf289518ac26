import Verif.Spec.Point
import Verif.Spec.Ripemd

/-
BIP32 (hierarchical deterministic wallets), the seed of BIP39, and derivation paths.
-/

namespace UB.Spec

/-- First four bytes of the identifier of a key. -/
def fingerprintOf (P : Pt) : Bytes := (hash160 (secOf true P)).take 4

/-- BIP32 serialization of an extended key: version, depth, fingerprint of the parent, child number, chain code, 33 bytes of key. -/
def extended (version : Bytes) (depth : Nat) (fingerprint : Bytes) (i : Nat) (c key : Bytes) : Bytes :=
  version ++ beBytes 1 depth ++ fingerprint ++ beBytes 4 i ++ c ++ key

/-- Kinds of outputs with version bytes of their own in SLIP-132; `plain` are those of BIP32. -/
inductive VersionKind
  | plain | p2shP2wpkh | p2wpkh | p2shP2wsh | p2wsh
deriving DecidableEq, Repr

/-- Version bytes of SLIP-132: xprv, yprv, zprv, Yprv, Zprv; xpub, ypub, zpub, Ypub, Zpub; and for test networks tprv, uprv, vprv, Uprv,
Vprv; tpub, upub, vpub, Upub, Vpub. -/
def slip132 (main pub : Bool) (k : VersionKind) : Bytes :=
  beBytes 4 (match main, pub, k with
    | true, false, .plain => 0x0488ade4
    | true, false, .p2shP2wpkh => 0x049d7878
    | true, false, .p2wpkh => 0x04b2430c
    | true, false, .p2shP2wsh => 0x0295b005
    | true, false, .p2wsh => 0x02aa7a99
    | true, true, .plain => 0x0488b21e
    | true, true, .p2shP2wpkh => 0x049d7cb2
    | true, true, .p2wpkh => 0x04b24746
    | true, true, .p2shP2wsh => 0x0295b43f
    | true, true, .p2wsh => 0x02aa7ed3
    | false, false, .plain => 0x04358394
    | false, false, .p2shP2wpkh => 0x044a4e28
    | false, false, .p2wpkh => 0x045f18bc
    | false, false, .p2shP2wsh => 0x024285b5
    | false, false, .p2wsh => 0x02575048
    | false, true, .plain => 0x043587cf
    | false, true, .p2shP2wpkh => 0x044a5262
    | false, true, .p2wpkh => 0x045f1cf6
    | false, true, .p2shP2wsh => 0x024289ef
    | false, true, .p2wsh => 0x02575483)

/-- The 64 bytes `I` for child `i` of a private key: from the private key for hardened children, else from the public key. -/
def childHash (d : Nat) (c : Bytes) (i : Nat) : Bytes :=
  hmacSha512 c (if 2 ^ 31 ≤ i then 0 :: beBytes 32 d ++ beBytes 4 i else secOf true (d • G) ++ beBytes 4 i)

/-- CKDpriv of BIP32; `none`: the resulting key is invalid. -/
def ckdPriv (d : Nat) (c : Bytes) (i : Nat) : Option (Nat × Bytes) :=
  let I := childHash d c i
  let il := beNat (I.take 32)
  if secpN ≤ il ∨ (il + d) % secpN = 0 then none else some ((il + d) % secpN, I.drop 32)

/-- CKDpub of BIP32; `none`: failure. -/
noncomputable def ckdPub (P : Pt) (c : Bytes) (i : Nat) : Option (Pt × Bytes) :=
  if 2 ^ 31 ≤ i then none
  else
    let I := hmacSha512 c (secOf true P ++ beBytes 4 i)
    let il := beNat (I.take 32)
    open Classical in
    if secpN ≤ il ∨ il • G + P = 0 then none else some (il • G + P, I.drop 32)

/-- Master key generation of BIP32 with the key "Bitcoin seed". -/
def masterKey (seed : Bytes) : Option (Nat × Bytes) :=
  let I := hmacSha512 [66, 105, 116, 99, 111, 105, 110, 32, 115, 101, 101, 100] seed
  let il := beNat (I.take 32)
  if il = 0 ∨ secpN ≤ il then none else some (il, I.drop 32)

/-- Seed of BIP39 with the salt "mnemonic" followed by the passphrase. -/
def mnemonicSeed (mnemonic password : Bytes) : Bytes :=
  pbkdf2 hmacSha512 64 mnemonic ([109, 110, 101, 109, 111, 110, 105, 99] ++ password) 2048 64

end UB.Spec
