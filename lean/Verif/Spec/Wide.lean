import Verif.Model.Base

/-
The byte strings on which a parser may meet an eight-byte length.
-/

namespace UB.Spec

/-- The bytes contain `0xff`, the first byte of an eight-byte length, and at least four more bytes behind it. -/
def Wide (p : Bytes) : Prop := ∃ pre r, p = pre ++ 0xff :: r ∧ 4 ≤ r.length

theorem Wide.mono {q q' : Bytes} (h : Wide q) (hi : q <:+: q') : Wide q' := by
  obtain ⟨pre, r, rfl, hr⟩ := h
  obtain ⟨a, b, rfl⟩ := hi
  exact ⟨a ++ pre, r ++ b, by simp, by simp; omega⟩

end UB.Spec
