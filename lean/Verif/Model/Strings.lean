import Verif.Model.Text
import Verif.Model.TxHash
import Verif.Model.KeyAddress

/-
The remaining functions which return a `String`: the overloads of the binary, base-58 and base-43 conversions, `wif()`, `xprv()`, `xpub()`,
`fingerprint()`, `txid()`, `wtxid()`, `sec()`, `x()` and `Script::address()`.

A `String` is the list of its characters. `malloc`/`calloc` succeed (DESIGN.md, section 4).
-/

namespace UB

/-- Conversion.cpp:182-195 `String toBin(array, arraySize)`.  (The memory given by `malloc` is erased by `toBin`; its old contents are
taken to be zeros.) -/
def toBinString (array : Bytes) : C Bytes :=
  stringFrom (toBin array (zeros (array.length * 8 + 1))).2

/-- Conversion.cpp:320-329 `String toBase58(array, arraySize)`; `junk` is what the allocated memory contains. -/
def toBase58String (array junk : Bytes) : C Bytes :=
  stringFrom (toBase58 array (junk.take (toBaseLength base58 array + 1))).2

/-- Conversion.cpp:237-240 when told that the array has `n` elements: the zero bytes at its beginning, reading past the end of an array with
fewer elements. -/
def countZerosOf (array : Bytes) (n : Nat) : C Nat :=
  if countZeros array = array.length ∧ array.length < n then .ub else .ok (countZeros array)

/-- Conversion.cpp:348-358 `String toBase58Check(array, arraySize)`: line 350 asks for the length of `arraySize + 4` bytes of the array which
has `arraySize`.  `junk` is what the allocated memory contains, `H` is `doubleSha`. -/
def toBase58CheckString (H : Bytes → Bytes) (array junk : Bytes) : C Bytes := do
  let zeroCount ← countZerosOf array (array.length + 4)
  let len := (array.length + 4 - zeroCount) * 183 / 134 + 1 + zeroCount + 1
  stringFrom (toBase58Check H array (junk.take len)).2

/-- Conversion.cpp:547-557 `String toBase43(array, arraySize)`: one byte more than the encoder is told of is allocated. -/
def toBase43String (array : Bytes) : C Bytes :=
  stringFrom ((toBase43 array (zeros (toBaseLength base43 array))).2 ++ [0])

/-- Bitcoin.cpp:553-557 `PrivateKey::wif()`. -/
def PrivKey.wifString (H : Bytes → Bytes) (k : PrivKey) : C Bytes := stringFrom (k.wif H 53).2

/-- HDWallet.cpp:314-318 `HDPrivateKey::xprv()`. -/
def HDPriv.xprvString (H : Bytes → Bytes) (k : HDPriv) : C Bytes := stringFrom (k.xprv H (zeros 112)).2

/-- HDWallet.cpp:371-375 `HDPrivateKey::fingerprint()`. -/
def HDPriv.fingerprintString (k : HDPriv) : C Bytes := do
  let arr ← k.fingerprint
  toHexString arr

/-- HDWallet.cpp:742-746 `HDPublicKey::xpub()`. -/
def HDPub.xpubString (H : Bytes → Bytes) (k : HDPub) : C Bytes := do
  let (_, arr) ← k.xpub H (zeros 114)
  stringFrom arr

/-- HDWallet.cpp:769-773 `HDPublicKey::fingerprint()`. -/
def HDPub.fingerprintString (k : HDPub) : C Bytes := do
  let arr ← k.fingerprint
  toHexString arr

/-- Transaction.cpp:589-593 `Tx::txid()`. -/
def Tx.txidString (t : Tx) : C Bytes := do
  let id ← t.txid
  toHexString id

/-- Transaction.cpp:594-598 `Tx::wtxid()`. -/
def Tx.wtxidString (t : Tx) : C Bytes := do
  let id ← t.wtxid
  toHexString id

/-- BitcoinCurve.h:63-72 (46-55) `sec()`: 131 characters, of which the one after the text of a compressed key is set to NUL. -/
def ECPoint.secString (p : ECPoint) : C Bytes := do
  let (_, arr) ← serialize p.toStream 131 0 .hex
  stringFrom (if p.compressed then arr.set 67 0 else arr)

/-- BitcoinCurve.h:73-77 (56-60) `x()`; line 34 copies the first 32 bytes of the point. -/
def ECPoint.xString (p : ECPoint) : C Bytes := do
  let arr ← load p.point 0 32
  toHexString arr

/-- Script.cpp:408-415 `Script::address(network)`. -/
def Script.addressString (sc : Script) (net : Network) : C Bytes := do
  let (buffer, l) ← sc.address (zeros 100) net
  if l = 0 then return [] else stringFrom buffer

end UB
