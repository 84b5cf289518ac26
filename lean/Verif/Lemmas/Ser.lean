import Verif.Model.Transaction
import Verif.Spec.Wire
import Verif.Lemmas.Ints

/-
The window lemma: a `to_stream` built from `emit` steps writes a window of the concatenation.
-/

namespace UB

open Spec

namespace Ser

/-- The stream state after the part `full` of a serialization has been offered to it. -/
def after (cap : Option Nat) (offset : Nat) (full : Bytes) : Ser :=
  ⟨cap.map (· - (window cap offset full).length), window cap offset full⟩

theorem after_nil (cap : Option Nat) (offset : Nat) : after cap offset [] = ⟨cap, []⟩ := by
  unfold after window; cases cap <;> simp

theorem window_split (cap : Option Nat) (offset : Nat) (full x : Bytes) (hp : (window cap offset full).length + offset < full.length + x.length)
    (ha : (after cap offset full).avail = true) :
    full.length ≤ (window cap offset full).length + offset ∧
    window cap offset (full ++ x) = window cap offset full ++
      window (cap.map (· - (window cap offset full).length)) ((window cap offset full).length + offset - full.length) x := by
  cases cap with
  | none =>
    simp only [window, List.length_drop, Option.map_none] at *
    refine ⟨by omega, ?_⟩
    rw [List.drop_append]
    congr 2
    omega
  | some c =>
    simp only [window, List.length_drop, Option.map_some, List.length_take, after, avail, bne_iff_ne, ne_eq, Option.some.injEq] at *
    have hc : min c (full.length - offset) = full.length - offset := by omega
    rw [hc]
    refine ⟨by omega, ?_⟩
    rw [List.drop_append, List.take_append]
    simp only [List.length_drop]
    congr 3
    omega

theorem window_full (cap : Option Nat) (offset : Nat) (full x : Bytes)
    (h : ¬ ((after cap offset full).avail = true ∧ (window cap offset full).length + offset < full.length + x.length)) :
    window cap offset (full ++ x) = window cap offset full := by
  cases cap with
  | none =>
    simp only [window, List.length_drop, after, avail] at *
    have : full.length + x.length ≤ full.length - offset + offset := by
      by_contra hh
      exact h ⟨by simp, by omega⟩
    by_cases ho : offset ≤ full.length
    · have : x = [] := by apply List.length_eq_zero_iff.mp; omega
      simp [this]
    · rw [List.drop_eq_nil_of_le (by simp; omega), List.drop_eq_nil_of_le (by omega)]
  | some c =>
    simp only [window, List.length_drop, after, avail, List.length_take, Option.map_some, bne_iff_ne, ne_eq, Option.some.injEq] at *
    by_cases hc : c ≤ full.length - offset
    · rw [List.drop_append, List.take_append_of_le_length (by simp; omega)]
    · have h2 : min c (full.length - offset) = full.length - offset := by omega
      rw [h2] at h
      by_cases ho : offset ≤ full.length
      · have : x = [] := by apply List.length_eq_zero_iff.mp; omega
        simp [this]
      · rw [List.drop_eq_nil_of_le (as := full) (by omega), List.drop_eq_nil_of_le (by simp; omega)]

theorem push_after (cap : Option Nat) (offset : Nat) (full x : Bytes) (bs : Bytes)
    (h : window cap offset (full ++ x) = window cap offset full ++ bs) :
    (after cap offset full).push bs = after cap offset (full ++ x) := by
  simp only [after, push, h, List.length_append]
  congr 1
  cases cap with
  | none => rfl
  | some c => simp only [Option.map_some, Option.some.injEq]; omega

theorem emit_after' (cap : Option Nat) (offset : Nat) (full src : Bytes) (k : Nat) (hk : k ≤ src.length) (lo hi : Nat)
    (hlo : lo = full.length) (hhi : hi = full.length + k) :
    (after cap offset full).emit src lo hi offset = .ok (after cap offset (full ++ src.take k)) := by
  subst hlo hhi
  have hk' : (src.take k).length = k := by simp; omega
  unfold emit
  have e : (after cap offset full).out = window cap offset full := rfl
  have ec : (after cap offset full).cap = cap.map (· - (window cap offset full).length) := rfl
  simp only [e]
  by_cases h : (after cap offset full).avail = true ∧ (window cap offset full).length + offset < full.length + (src.take k).length
  · obtain ⟨h1, h2⟩ := window_split cap offset full (src.take k) h.2 h.1
    have h3 := h.1
    have h4 := h.2
    unfold avail at h3
    rw [hk'] at h4
    unfold room
    rw [ec] at h3 ⊢
    rw [← push_after cap offset full (src.take k) _ h2]
    generalize (window cap offset full).length = w at *
    cases cap with
    | none =>
      simp only [Option.map_none]
      rw [if_neg (by omega), if_neg (by omega)]
      simp only [load]
      rw [if_pos (by omega)]
      simp only [C.bind_ok, C.pure_eq, window]
      rw [List.drop_take]
      congr 3
      omega
    | some c =>
      simp only [Option.map_some, bne_iff_ne, ne_eq, Option.some.injEq] at h3 ⊢
      rw [if_neg (by omega), if_neg (by omega)]
      simp only [load]
      rw [if_pos (by omega)]
      simp only [C.bind_ok, C.pure_eq, window]
      rw [List.drop_take, List.take_take]
      congr 3
      omega
  · have h2 := window_full cap offset full (src.take k) h
    have h3 : (after cap offset full).room (full.length + k - ((window cap offset full).length + offset)) = 0 := by
      unfold avail at h
      unfold room
      rw [hk', ec] at h
      rw [ec]
      generalize (window cap offset full).length = w at *
      cases cap with
      | none => simp at h ⊢; omega
      | some c =>
        simp only [Option.map_some, bne_iff_ne, ne_eq, Option.some.injEq] at h ⊢; omega
    rw [if_pos h3]
    simp [after, h2]

theorem emit_after (cap : Option Nat) (offset : Nat) (full src : Bytes) (lo hi : Nat)
    (hlo : lo = full.length) (hhi : hi = full.length + src.length) :
    (after cap offset full).emit src lo hi offset = .ok (after cap offset (full ++ src)) := by
  have := emit_after' cap offset full src src.length (Nat.le_refl _) lo hi hlo hhi
  simpa using this

theorem emitObj_after (cap : Option Nat) (offset : Nat) (full x : Bytes) (f : Option Nat → Nat → C Bytes) (lo hi : Nat)
    (hlo : lo = full.length) (hhi : hi = full.length + x.length)
    (hf : ∀ c o, f c o = .ok (window c o x)) :
    (after cap offset full).emitObj f lo hi offset = .ok (after cap offset (full ++ x)) := by
  subst hlo hhi
  unfold emitObj
  have e : (after cap offset full).out = window cap offset full := rfl
  rw [e]
  by_cases h : (after cap offset full).avail = true ∧ (window cap offset full).length + offset < full.length + x.length
  · rw [if_pos h]
    obtain ⟨h1, h2⟩ := window_split cap offset full x h.2 h.1
    rw [if_neg (by omega), hf]
    simp only [C.bind_ok, C.pure_eq]
    rw [← push_after cap offset full x _ h2]; rfl
  · rw [if_neg h]
    have := window_full cap offset full x h
    simp [after, this]

theorem emitOne_after (cap : Option Nat) (offset : Nat) (full src : Bytes) (b : UInt8) (lo hi : Nat)
    (hlo : lo = full.length) (hhi : hi = full.length + 1) (hs : src.take 1 = [b]) :
    (after cap offset full).emitOne src lo hi offset = .ok (after cap offset (full ++ [b])) := by
  subst hlo hhi
  obtain ⟨rest, rfl⟩ : ∃ rest, src = b :: rest := by
    cases src with
    | nil => simp at hs
    | cons a r => simp at hs; exact ⟨r, by rw [hs]⟩
  unfold emitOne
  have e : (after cap offset full).out = window cap offset full := rfl
  rw [e]
  by_cases h : (after cap offset full).avail = true ∧ (window cap offset full).length + offset < full.length + 1
  · rw [if_pos h]
    obtain ⟨h1, h2⟩ := window_split cap offset full [b] h.2 h.1
    rw [if_neg (by omega)]
    have h3 : (window cap offset full).length + offset - full.length = 0 := by omega
    rw [h3] at h2 ⊢
    have h4 : window (cap.map (· - (window cap offset full).length)) 0 [b] = [b] := by
      have h5 := h.1
      unfold after avail at h5
      cases cap with
      | none => simp [window]
      | some c =>
        simp [window] at h5 ⊢
        apply List.take_of_length_le; simp; omega
    rw [h4] at h2
    simp only [load, List.length_cons, List.drop_zero, List.take_succ_cons, List.take_zero]
    rw [if_pos (by omega)]
    simp only [C.bind_ok, C.pure_eq]
    rw [push_after cap offset full [b] _ h2]
  · rw [if_neg h]
    have := window_full cap offset full [b] h
    simp [after, this]

end Ser

end UB
