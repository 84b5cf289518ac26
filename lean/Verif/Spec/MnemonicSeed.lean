import Verif.Spec.HDWallet

/-
What a user of `mnemonic_to_seed` sees over a sequence of calls: the seeds of BIP39, and reports of progress except for texts that were
asked for a short while ago.
-/

namespace UB.Spec

/-- Texts which are remembered. -/
abbrev ShortTexts (m p : Bytes) : Prop := m.length < 256 ∧ p.length < 64

/-- The reports of a computation: sixteen equal parts. -/
def seedReports : List (Nat × Nat) := (List.range 17).map fun i => (128 * i, 2048)

/-- The reports of a call when `recent` are the pairs remembered, the newest first. -/
def reportsOf (recent : List (Bytes × Bytes)) (m p : Bytes) : List (Nat × Nat) :=
  if ShortTexts m p ∧ (m, p) ∈ recent then [] else seedReports

/-- The pairs remembered after a call: the last four which were computed. -/
def recentAfter (recent : List (Bytes × Bytes)) (m p : Bytes) : List (Bytes × Bytes) :=
  if ShortTexts m p ∧ (m, p) ∉ recent then ((m, p) :: recent).take 4 else recent

/-- Results of a sequence of calls. -/
def seedResults : List (Bytes × Bytes) → List (Bytes × Bytes) → List (Bytes × List (Nat × Nat))
  | _, [] => []
  | recent, (m, p) :: cs => (mnemonicSeed m p, reportsOf recent m p) :: seedResults (recentAfter recent m p) cs

/-- The pairs remembered after a sequence of calls. -/
def recentOf : List (Bytes × Bytes) → List (Bytes × Bytes) → List (Bytes × Bytes)
  | recent, [] => recent
  | recent, (m, p) :: cs => recentOf (recentAfter recent m p) cs

end UB.Spec
