import Verif.Spec.Ripemd

/-
What hash objects are for: the message since the last `begin`, and its digest.
-/

namespace UB.Spec

/-- The functions of a class: its digest, and the hash function and block size of its HMAC (none for RMD160). -/
structure HashClass where
  digest : Bytes → Bytes
  inner : Option ((Bytes → Bytes) × Nat)

def classRMD160 : HashClass := ⟨ripemd160, none⟩
def classSHA256 : HashClass := ⟨sha256, some (sha256, 64)⟩
def classHash160 : HashClass := ⟨hash160, some (sha256, 64)⟩
def classDoubleSha : HashClass := ⟨hash256, some (sha256, 64)⟩
def classSHA512 : HashClass := ⟨sha512, some (sha512, 128)⟩

end UB.Spec
