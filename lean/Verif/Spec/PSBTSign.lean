import Verif.Spec.PSBT
import Verif.Spec.HDWallet
import Verif.Spec.Ecdsa
import Verif.Spec.Script

/-
Signing PSBTs: keys at the end of derivation paths, the digest of an input, and the partial signatures that belong to a master key.
-/

namespace UB.Spec

/-- Child key and chain code.  Where BIP32 calls the key invalid (probability below 2^-127) the left half is taken modulo the order. -/
def childKey (d : Nat) (c : Bytes) (i : Nat) : Nat × Bytes :=
  ((beNat ((childHash d c i).take 32) + d) % secpN, (childHash d c i).drop 32)

/-- Key and chain code at the end of a path. -/
def keyAt (d : Nat) (c : Bytes) : List Nat → Nat × Bytes
  | [] => (d, c)
  | i :: is => keyAt (childKey d c i).1 (childKey d c i).2 is

/-- What is known about an input: the output it spends, redeem script and witness script (empty: not given). -/
structure InputInfo where
  spent : Out
  redeem : Bytes
  witness : Bytes

/-- The information in the fields of an input that spends output `n`: the last field of each kind. -/
def infoOf (n : Nat) (fs : List InField) : InputInfo where
  spent := (lastOf (·.spent n) fs).getD ⟨0, []⟩
  redeem := (lastOf InField.redeem fs).getD []
  witness := (lastOf InField.witness fs).getD []

/-- The pattern of a version 0 key hash program. -/
def IsP2wpkh (s : Bytes) : Prop := ∃ h : Bytes, h.length = 20 ∧ s = p2wpkhScript h

instance (s : Bytes) : Decidable (IsP2wpkh s) :=
  decidable_of_iff (s.length = 22 ∧ s = p2wpkhScript (s.drop 2)) (by
    constructor
    · rintro ⟨h1, h2⟩
      exact ⟨s.drop 2, by simp [h1], h2⟩
    · rintro ⟨h, h1, rfl⟩
      simp [p2wpkhScript, h1])

/-- The digest the library signs for input number `i` (`inp`) of `x` with the key `P`, with hash type ALL. -/
noncomputable def inputDigest (x : Transaction) (i : Nat) (inp : In) (f : InputInfo) (P : Pt) : Bytes :=
  if f.witness ≠ [] then segwitSigHash x i inp f.witness f.spent.amount 1
  else if f.redeem ≠ [] then
    if IsP2wpkh f.redeem then segwitSigHash x i inp (p2pkhScript (hash160 (secOf true P))) f.spent.amount 1 else legacySigHash x i f.redeem 1
  else if IsP2wpkh f.spent.script then segwitSigHash x i inp (p2pkhScript (hash160 (secOf true P))) f.spent.amount 1
  else legacySigHash x i f.spent.script 1

/-- The two numbers of a signature, (0, 0) if there is none. -/
def sigNumbers (o : Option (Nat × Nat × Nat)) : Nat × Nat := (o.map fun t => (t.1, t.2.1)).getD (0, 0)

/-- The deterministic signature; (0, 0) if 10000 nonces are refused in sequence. -/
noncomputable def signatureOf (d : Nat) (digest : Bytes) : Nat × Nat := sigNumbers (ecdsaDeterministic (beBytes 32 d) digest 10000)

/-- The entry belongs to the master key `(d, c)`: fingerprint of the master key, and the key at the end of the path is the recorded one. -/
def Owns (d : Nat) (c : Bytes) (o : KeyOrigin) : Prop :=
  o.fingerprint = fingerprintOf (d • G) ∧ o.point = (keyAt d c o.path).1 • G

/-- `g` is the partial signature with the key of entry `o` of input `i`. -/
structure SignedBy (x : Transaction) (i : Nat) (inp : In) (f : InputInfo) (d : Nat) (c : Bytes) (o : KeyOrigin) (g : SigEntry) : Prop where
  compressed : g.compressed = true
  point : g.point = o.point
  sig : (g.r, g.s) = signatureOf (keyAt d c o.path).1 (inputDigest x i inp f o.point)
  der : DerSig g.der g.r g.s
  type : g.type = 1

/-- The leading hardened indices of a path. -/
def hardenedPrefix (path : List Nat) : List Nat := path.takeWhile fun k => decide (2 ^ 31 ≤ k)

end UB.Spec
