import Verif.Spec.Conversion

/-
DER encoding of ECDSA signatures (X.690 8.1, 8.3, 10.1; BIP 66), independent of the code.
-/

namespace UB.Spec

/-- Two's complement value of content octets (X.690 8.3.3). -/
def twosValue (c : Bytes) : Int :=
  if 0x80 ≤ c.headD 0 then (beValue c : Int) - 256 ^ c.length else beValue c

/-- `c` are the content octets of the integer `n`: at least one octet, the right value, and the first
nine bits neither all zero nor all one (X.690 8.3.2). -/
def DerContent (c : Bytes) (n : Nat) : Prop :=
  c ≠ [] ∧ twosValue c = n ∧
  ∀ a b r, c = a :: b :: r → ¬ (a = 0 ∧ b < 0x80) ∧ ¬ (a = 0xff ∧ 0x80 ≤ b)

/-- `bytes` is the DER encoding of `SEQUENCE { INTEGER r, INTEGER s }` with one-byte lengths. -/
def DerSig (bytes : Bytes) (r s : Nat) : Prop :=
  ∃ cr cs, DerContent cr r ∧ DerContent cs s ∧ cr.length + cs.length + 4 < 128 ∧
    bytes = [0x30, UInt8.ofNat (cr.length + cs.length + 4)] ++
      ([0x02, UInt8.ofNat cr.length] ++ cr) ++ ([0x02, UInt8.ofNat cs.length] ++ cs)

end UB.Spec
