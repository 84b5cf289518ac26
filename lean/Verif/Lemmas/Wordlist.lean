import Verif.Model.Wordlist
import Verif.Spec.Sha2
import Verif.Spec.Ints

/-
Facts on the word list.
-/

namespace UB
open Spec

theorem wordlist_length : wordlist.length = 2048 := by decide +kernel

theorem wordlist_all : (wordlist.all fun w => decide (w ≠ [] ∧ w.length ≤ 8) && w.all fun c => decide (c ≠ 0x20 ∧ c ≠ 0)) = true := by decide +kernel

theorem wordlist_word {w : Bytes} (h : w ∈ wordlist) : w ≠ [] ∧ w.length ≤ 8 ∧ ∀ c ∈ w, c ≠ 0x20 ∧ c ≠ 0 := by
  have := List.all_eq_true.mp wordlist_all w h
  simp only [Bool.and_eq_true, decide_eq_true_eq, List.all_eq_true] at this
  exact ⟨this.1.1, this.1.2, this.2⟩

/-- A number that grows with the alphabetic order of words up to eight characters. -/
def wordKey (w : Bytes) : Nat := (w ++ zeros (8 - w.length)).foldl (fun n c => 256 * n + c.toNat) 0

def increasing : List Nat → Bool
  | [] => true
  | [_] => true
  | a :: b :: l => decide (a < b) && increasing (b :: l)

theorem increasing_pairwise : ∀ l : List Nat, increasing l = true → l.Pairwise (· < ·)
  | [], _ => List.Pairwise.nil
  | [a], _ => List.pairwise_singleton _ a
  | a :: b :: l, h => by
    simp only [increasing, Bool.and_eq_true, decide_eq_true_eq] at h
    have ih := increasing_pairwise (b :: l) h.2
    refine List.pairwise_cons.mpr ⟨fun c hc => ?_, ih⟩
    rcases List.mem_cons.mp hc with rfl | hc
    · exact h.1
    · exact Nat.lt_trans h.1 ((List.pairwise_cons.mp ih).1 c hc)

theorem wordlist_increasing : increasing (wordlist.map wordKey) = true := by decide +kernel

theorem wordlist_nodup : wordlist.Nodup := by
  have h := increasing_pairwise _ wordlist_increasing
  rw [List.pairwise_map] at h
  exact h.imp fun h e => by rw [e] at h; exact absurd h (Nat.lt_irrefl _)

end UB
