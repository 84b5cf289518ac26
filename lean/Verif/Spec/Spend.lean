import Verif.Spec.Interp

/-
What it means that an input spends an output of another transaction.
-/

namespace UB.Spec

/-- Input `i` of `x` names output `n` of the transaction `parent` and meets the conditions of its script. -/
def SpendsOutput (x : Transaction) (i : Nat) (parent : Transaction) (n : Nat) : Prop :=
  ∃ inp out, x.ins[i]? = some inp ∧ parent.outs[n]? = some out ∧ inp.prevHash = hash256 (legacyBytes parent) ∧ inp.prevIndex = n ∧ InputOk x i out.amount out.script

end UB.Spec
