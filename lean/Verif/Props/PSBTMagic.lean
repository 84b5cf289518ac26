import Verif.Props.PSBTPieces

/-
C74: data that are not a PSBT.
-/

namespace UB

open Spec

/-- C74: data that do not begin with the five bytes of the prefix are refused, whatever the pieces they are delivered in. -/
theorem C74_wrong_magic (junk : Nat → Bytes) {p : PSBT} (hp : p.Clean) (cs : List Bytes) (hne : cs ≠ []) (h : ¬ psbtMagic <+: cs.flatten) :
    (feedPieces (PSBT.fromStream junk) (·.status) p cs).1.status = .failed := by
  cases cs with
  | nil => exact absurd rfl hne
  | cons c cs =>
    have hc : (PSBT.fromStream junk p (.of c)).1.status = .failed := by
      by_cases hl : c.length < 5
      · exact C74_short_first junk hp c hl
      rw [PSBT.fromStream_eq junk hp]
      rcases PSBT.readMagic_spec PSBT.magic 0 c with ⟨c', h1, -⟩ | ⟨h1, -, -⟩ | ⟨-, -, h3⟩
      · refine absurd ⟨c' ++ cs.flatten, ?_⟩ h
        rw [List.flatten_cons, h1, List.append_assoc]
        rfl
      · exact absurd h1 hl
      · revert h3
        generalize PSBT.readMagic PSBT.magic 0 (.of c) = x
        obtain ⟨b, n, s⟩ := x
        rintro rfl
        rfl
    unfold feedPieces
    dsimp only
    rw [hc, if_neg (by simp)]
    exact hc

/-- The prefix of Electrum's own format in three pieces. -/
example (junk : Nat → Bytes) (r : Bytes) :
    (feedPieces (PSBT.fromStream junk) (·.status) {} [[0x45, 0x50, 0x54], [0x46, 0xff], 0x00 :: r]).1.status = .failed :=
  C74_wrong_magic junk PSBT.clean_fresh _ (by simp) (by
    rintro ⟨t, ht⟩
    simp [psbtMagic] at ht)

/-- A prefix whose last byte only is wrong. -/
example (junk : Nat → Bytes) (r : Bytes) : (feedPieces (PSBT.fromStream junk) (·.status) {} [psbtMagic.take 4 ++ 0xfe :: r]).1.status = .failed :=
  C74_wrong_magic junk PSBT.clean_fresh _ (by simp) (by
    rintro ⟨t, ht⟩
    simp [psbtMagic] at ht)

end UB
