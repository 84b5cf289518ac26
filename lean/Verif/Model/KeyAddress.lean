import Verif.Model.HDWallet
import Verif.Model.Address
import Verif.Model.StringFrom

/-
Model of the addresses of keys: Bitcoin.cpp:372-432, 601-626 and HDWallet.cpp:301-330, 729-758.

`len` is the size of the caller's buffer, whose old contents are erased; results are the return value and the new contents.
-/

namespace UB

namespace ECPoint

/-- Bitcoin.cpp:375-378, 398-401, 417-419: `hash160` of what `sec` (which is not virtual) gives. -/
def keyHash (p : ECPoint) : C Bytes := do
  let (l, arr) ← p.sec 65
  return hash160 (arr.take l)

/-- Bitcoin.cpp:372-385 `PublicKey::legacyAddress(address, len, network)`. -/
def legacyAddress (p : ECPoint) (len : Nat) (net : Network) : C (Nat × Bytes) := do
  let h ← p.keyHash
  return toBase58Check doubleSha (net.p2pkh :: h) (zeros len)

/-- Bitcoin.cpp:387-391. -/
def legacyAddressText (p : ECPoint) (net : Network) : C Bytes := do
  let (_, addr) ← p.legacyAddress 40 net
  stringFrom addr

/-- Bitcoin.cpp:393-404 `segwitAddress`. -/
def segwitAddress (p : ECPoint) (len : Nat) (net : Network) : C (Nat × Bytes) := do
  if len < 76 then return (0, zeros len)
  else do
    let h ← p.keyHash
    let (_, addr) ← segwitAddrEncode (zeros len) net.bech32 0 h
    return (76, addr)

/-- Bitcoin.cpp:406-410. -/
def segwitAddressText (p : ECPoint) (net : Network) : C Bytes := do
  let (_, addr) ← p.segwitAddress 76 net
  stringFrom addr

/-- Bitcoin.cpp:412-426 `nestedSegwitAddress`. -/
def nestedSegwitAddress (p : ECPoint) (len : Nat) (net : Network) : C (Nat × Bytes) := do
  let h ← p.keyHash
  return toBase58Check doubleSha (net.p2sh :: hash160 ([0x00, 0x14] ++ h)) (zeros len)

/-- Bitcoin.cpp:428-432. -/
def nestedSegwitAddressText (p : ECPoint) (net : Network) : C Bytes := do
  let (_, addr) ← p.nestedSegwitAddress 40 net
  stringFrom addr

end ECPoint

namespace PrivKey

/-- Bitcoin.cpp:601-606 `address`, `legacyAddress` (Bitcoin.h:129: `PublicKey::address` is `legacyAddress`). -/
def legacyAddress (k : PrivKey) (len : Nat) : C (Nat × Bytes) := k.pubKey.legacyAddress len k.network

/-- Bitcoin.cpp:607-609. -/
def segwitAddress (k : PrivKey) (len : Nat) : C (Nat × Bytes) := k.pubKey.segwitAddress len k.network

/-- Bitcoin.cpp:610-612. -/
def nestedSegwitAddress (k : PrivKey) (len : Nat) : C (Nat × Bytes) := k.pubKey.nestedSegwitAddress len k.network

end PrivKey

/-- HDWallet.cpp:729-740 `HDPublicKey::address(addr, len)`. -/
def HDPub.address (k : HDPub) (len : Nat) : C (Nat × Bytes) :=
  match k.head.type with
  | .p2wpkh => k.key.segwitAddress len k.head.network
  | .p2sh_p2wpkh => k.key.nestedSegwitAddress len k.head.network
  | .p2pkh => k.key.legacyAddress len k.head.network
  | _ => k.key.segwitAddress len k.head.network

/-- HDWallet.cpp:747-758 `HDPublicKey::address()`. -/
def HDPub.addressText (k : HDPub) : C Bytes :=
  match k.head.type with
  | .p2wpkh => k.key.segwitAddressText k.head.network
  | .p2sh_p2wpkh => k.key.nestedSegwitAddressText k.head.network
  | .p2pkh => k.key.legacyAddressText k.head.network
  | _ => k.key.segwitAddressText k.head.network

/-- HDWallet.cpp:301-312 `HDPrivateKey::address(addr, len)`. -/
def HDPriv.address (k : HDPriv) (len : Nat) : C (Nat × Bytes) :=
  match k.head.type with
  | .p2wpkh => k.toPriv.segwitAddress len
  | .p2sh_p2wpkh => k.toPriv.nestedSegwitAddress len
  | .p2pkh => k.toPriv.legacyAddress len
  | _ => k.toPriv.segwitAddress len

/-- HDWallet.cpp:319-330 `HDPrivateKey::address()`. -/
def HDPriv.addressText (k : HDPriv) : C Bytes :=
  match k.head.type with
  | .p2wpkh => k.pubKey.segwitAddressText k.head.network
  | .p2sh_p2wpkh => k.pubKey.nestedSegwitAddressText k.head.network
  | .p2pkh => k.pubKey.legacyAddressText k.head.network
  | _ => k.pubKey.segwitAddressText k.head.network

end UB
