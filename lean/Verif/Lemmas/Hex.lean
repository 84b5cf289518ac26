import Verif.Model.Conversion
import Verif.Spec.Conversion
import Verif.Lemmas.Bytes

namespace UB
open Spec

theorem hexDigit_hi (b : UInt8) : hexDigit (b >>> 4) = hexDigitChar (b.toNat / 16) := by
  revert b; apply forall_byte; decide +kernel

theorem hexDigit_lo (b : UInt8) : hexDigit (b &&& 0x0F) = hexDigitChar (b.toNat % 16) := by
  revert b; apply forall_byte; decide +kernel

theorem hexChars_eq (a : Bytes) : hexChars a = hexText a := by
  induction a with
  | nil => rfl
  | cons b bs ih => simp [hexChars, hexText, hexDigit_hi, hexDigit_lo] at *; exact ih

theorem length_hexText (a : Bytes) : (hexText a).length = 2 * a.length := by
  induction a with
  | nil => rfl
  | cons b bs ih => simp [hexText] at *; omega

theorem hexToVal_eq (c : UInt8) :
    hexToVal c = match hexValue? c with | some v => UInt8.ofNat v | none => 0xFF := by
  revert c; apply forall_byte; decide +kernel

theorem hexValue_lt (c : UInt8) : ∀ v, hexValue? c = some v → v < 16 := by
  revert c
  have : ∀ c : UInt8, (match hexValue? c with | some v => decide (v < 16) | none => true) = true := by
    apply forall_byte; decide +kernel
  intro c v hv
  have := this c
  rw [hv] at this
  simpa using this

theorem hexToVal_gt (c : UInt8) : decide (hexToVal c > 0x0F) = (hexValue? c).isNone := by
  revert c; apply forall_byte; decide +kernel

theorem skipNonHex_eq (t : Bytes) : skipNonHex t = skipToHex t := by
  induction t with
  | nil => rfl
  | cons c cs ih =>
    have := hexToVal_gt c
    simp only [skipNonHex, skipToHex, List.dropWhile_cons] at *
    cases h : (hexValue? c).isNone
    · rw [h] at this
      rw [if_neg (by simpa using this)]; simp
    · rw [h] at this
      rw [if_pos (by simpa using this)]; simpa using ih

theorem nibbles (a b : Nat) (ha : a < 16) (hb : b < 16) :
    (UInt8.ofNat a <<< 4) ||| UInt8.ofNat b = UInt8.ofNat (16 * a + b) := by
  have : ∀ a < 16, ∀ b < 16, (UInt8.ofNat a <<< 4) ||| UInt8.ofNat b = UInt8.ofNat (16 * a + b) := by
    decide +kernel
  exact this a ha b hb

theorem fromHexLoop_eq : ∀ (t : Bytes) (pre : Bytes) (k : Nat),
    fromHexLoop t pre.length (pre ++ zeros k) =
      if (hexPairs t).length ≤ k then
        .ok (pre.length + (hexPairs t).length, pre ++ hexPairs t ++ zeros (k - (hexPairs t).length))
      else .ub
  | [], pre, k => by simp [fromHexLoop, hexPairs]
  | [c], pre, k => by simp [fromHexLoop, hexPairs]
  | c1 :: c2 :: cs, pre, k => by
    have h1 := hexToVal_gt c1
    have h2 := hexToVal_gt c2
    have e1 := hexToVal_eq c1
    have e2 := hexToVal_eq c2
    unfold fromHexLoop hexPairs
    cases g1 : hexValue? c1 with
    | none => simp_all
    | some a =>
      cases g2 : hexValue? c2 with
      | none => simp_all
      | some b =>
        have la := hexValue_lt _ _ g1
        have lb := hexValue_lt _ _ g2
        simp only [g1, g2] at h1 h2 e1 e2
        have h1' : ¬ (hexToVal c1 > 0x0F) := by simpa using h1
        have h2' : ¬ (hexToVal c2 > 0x0F) := by simpa using h2
        simp only [h1', h2', decide_false, Bool.or_self, Bool.false_eq_true, if_false]
        cases k with
        | zero => simp [zeros]
        | succ k =>
          have hlt : pre.length < (pre ++ zeros (k + 1)).length := by simp [zeros]
          rw [if_pos hlt, e1, e2, nibbles a b la lb]
          have hs : (pre ++ zeros (k + 1)).set pre.length (UInt8.ofNat (16 * a + b)) =
              (pre ++ [UInt8.ofNat (16 * a + b)]) ++ zeros k := by
            simp [zeros_succ]
          rw [hs]
          have ih := fromHexLoop_eq cs (pre ++ [UInt8.ofNat (16 * a + b)]) k
          rw [List.length_append, List.length_singleton] at ih
          rw [ih]
          simp only [List.length_cons, Nat.succ_le_succ_iff]
          split
          · simp
            omega
          · rfl

theorem hexPairs_text (t a : Bytes) (h : t.map lower = hexText a) : hexPairs t = a := by
  have key : ∀ c : UInt8, ∀ n < 16, lower c = hexDigitChar n → hexValue? c = some n := by
    apply forall_byte; decide +kernel
  induction a generalizing t with
  | nil =>
    have : t = [] := by simpa [hexText] using h
    subst this; rfl
  | cons b bs ih =>
    match t with
    | [] => simp [hexText] at h
    | [c] => simp [hexText] at h
    | c1 :: c2 :: cs =>
      simp only [hexText, List.flatMap_cons, List.map_cons, List.cons_append, List.nil_append,
        List.cons.injEq] at h
      obtain ⟨h1, h2, h3⟩ := h
      have hb := b.toNat_lt
      have k1 := key c1 (b.toNat / 16) (by omega) h1
      have k2 := key c2 (b.toNat % 16) (by omega) h2
      have := ih cs h3
      simp only [hexPairs, k1, k2, this, List.cons.injEq, and_true]
      have : 16 * (b.toNat / 16) + b.toNat % 16 = b.toNat := by omega
      rw [this]; simp

theorem skipToHex_text (t a : Bytes) (h : t.map lower = hexText a) : skipToHex t = t := by
  have key : ∀ c : UInt8, ∀ n < 16, lower c = hexDigitChar n → (hexValue? c).isNone = false := by
    apply forall_byte; decide +kernel
  cases t with
  | nil => rfl
  | cons c cs =>
    cases a with
    | nil => simp [hexText] at h
    | cons b bs =>
      simp only [hexText, List.flatMap_cons, List.map_cons, List.cons_append,
        List.cons.injEq] at h
      have hb := b.toNat_lt
      have := key c (b.toNat / 16) (by omega) h.1
      simp [skipToHex, this]

theorem length_hexPairs_le : ∀ t : Bytes, 2 * (hexPairs t).length ≤ t.length
  | [] => by simp [hexPairs]
  | [_] => by simp [hexPairs]
  | c1 :: c2 :: cs => by
    have := length_hexPairs_le cs
    unfold hexPairs
    split
    · simp; omega
    · simp

end UB
