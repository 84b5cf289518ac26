import Verif.Spec.HDWallet
import Verif.Spec.Bech32
import Verif.Spec.Script
import Verif.Spec.Radix

/-
Addresses of wallets after BIP 44, BIP 49 and BIP 84: which key of the tree, which kind of address, and which chain.
-/

namespace UB.Spec

/-- What the addresses of a chain begin with: version bytes for Base58Check, and the prefix for Bech32. -/
structure Chain where
  p2pkh : UInt8
  p2sh : UInt8
  hrp : Bytes
deriving DecidableEq

/-- Main chain: "bc". -/
def mainChain : Chain := ⟨0x00, 0x05, [98, 99]⟩

/-- Test chain and Signet: "tb". -/
def testChain : Chain := ⟨0x6f, 0xc4, [116, 98]⟩

/-- Regression test mode: "bcrt". -/
def regtestChain : Chain := ⟨0x6f, 0xc4, [98, 99, 114, 116]⟩

/-- The secret and the chain code at the end of a path in the tree of a seed. -/
inductive TreeKey (seed : Bytes) : List Nat → Nat → Bytes → Prop
  | master {d c} : masterKey seed = some (d, c) → TreeKey seed [] d c
  | child {path d c i d' c'} : TreeKey seed path d c → ckdPriv d c i = some (d', c') → TreeKey seed (path ++ [i]) d' c'

/-- The text is the address of the public key `P` on the chain, of the kind that belongs to the purpose: 44 for P2PKH, 49 for P2WPKH inside P2SH, 84 for
P2WPKH. -/
inductive PurposeAddress (chain : Chain) (P : Pt) : Nat → Bytes → Prop
  | bip44 {p} : p = chain.p2pkh :: hash160 (secOf true P) → PurposeAddress chain P 44 (base58Text (p ++ (hash256 p).take 4))
  | bip49 {p} : p = chain.p2sh :: hash160 (p2wpkhScript (hash160 (secOf true P))) → PurposeAddress chain P 49 (base58Text (p ++ (hash256 p).take 4))
  | bip84 {text} : SegwitAddress text chain.hrp 0 (hash160 (secOf true P)) → (∀ c ∈ text, ¬ (65 ≤ c ∧ c ≤ 90)) → PurposeAddress chain P 84 text

/-- The text is the address that wallets show for the seed at m / purpose' / coin' / rest. -/
def WalletAddress (chain : Chain) (seed : Bytes) (purpose coin : Nat) (rest : List Nat) (text : Bytes) : Prop :=
  ∃ d c, TreeKey seed ((purpose + 2 ^ 31) :: (coin + 2 ^ 31) :: rest) d c ∧ PurposeAddress chain (d • G) purpose text

end UB.Spec
