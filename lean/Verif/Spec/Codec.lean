import Verif.Spec.Wire

/-
Encodings that can be read back from the front of any byte string.
-/

namespace UB.Spec

/-- On the values satisfying `D`, an encoding followed by anything determines the value and the rest. -/
def Prefix {α : Type} (D : α → Prop) (f : α → Bytes) : Prop :=
  ∀ x y r s, D x → D y → f x ++ r = f y ++ s → x = y ∧ r = s

/-- Field ranges of the wire format. -/
structure GoodIn (i : In) : Prop where
  hash : i.prevHash.length = 32
  index : i.prevIndex < 2 ^ 32
  script : i.script.length < 2 ^ 64
  sequence : i.sequence < 2 ^ 32
  count : i.witness.length < 2 ^ 64
  items : ∀ e ∈ i.witness, e.length < 2 ^ 64

structure GoodOut (o : Out) : Prop where
  amount : o.amount < 2 ^ 64
  script : o.script.length < 2 ^ 64

structure GoodTx (t : Transaction) : Prop where
  version : t.version < 2 ^ 32
  locktime : t.locktime < 2 ^ 32
  ins : t.ins.length < 2 ^ 64
  outs : t.outs.length < 2 ^ 64
  goodIns : ∀ i ∈ t.ins, GoodIn i
  goodOuts : ∀ o ∈ t.outs, GoodOut o

/-- An input without its witness. -/
def stripIn (i : In) : In := { i with witness := [] }

def strip (t : Transaction) : Transaction := { t with ins := t.ins.map stripIn }

end UB.Spec
