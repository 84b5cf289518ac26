import Verif.Model.StringFrom

namespace UB

theorem stringFrom_zeros (t : Bytes) (n : Nat) (hn : 0 < n) : stringFrom (t ++ zeros n) = .ok (cstr (t ++ zeros n)) := by
  unfold stringFrom
  rw [if_pos]
  rw [List.mem_append]
  right
  unfold zeros
  rw [List.mem_replicate]
  exact ⟨by omega, rfl⟩

end UB
