import Verif.Props.Base64

/-
C80: Base64 decoding of arbitrary padded text.
-/

namespace UB
open Spec

/-- Value of a Base64 character; the URL-safe flavour also takes the standard characters. -/
def Spec.value64 (url : Bool) (c : UInt8) : Option Nat :=
  if url ∧ c = 45 then some 62 else if url ∧ c = 95 then some 63 else (base64Alphabet false).findIdx? (· == c)

/-- The bytes a padded text stands for when unused bits, and everything after the first padding, are ignored; `none` if the text is not of this form. -/
def Spec.decode64 (url : Bool) : Bytes → Option Bytes
  | [] => some []
  | c1 :: c2 :: c3 :: c4 :: rest => do
    let a ← value64 url c1
    let b ← value64 url c2
    if c3 = 61 then return [UInt8.ofNat (a * 4 + b / 16)]
    let c ← value64 url c3
    if c4 = 61 then return [UInt8.ofNat (a * 4 + b / 16), UInt8.ofNat (b % 16 * 16 + c / 4)]
    let d ← value64 url c4
    let tl ← decode64 url rest
    return [UInt8.ofNat (a * 4 + b / 16), UInt8.ofNat (b % 16 * 16 + c / 4), UInt8.ofNat (c % 4 * 64 + d)] ++ tl
  | _ => none

theorem value64_lt (u : Bool) (c : UInt8) (v : Nat) (h : value64 u c = some v) : v < 64 := by
  have : ∀ u, ∀ c : UInt8, ((value64 u c).all (· < 64)) = true := by
    intro u; cases u <;> (apply forall_byte; decide +kernel)
  have := this u c
  rw [h] at this
  simpa using this

theorem b64Step_any (u nul : Bool) (fuel i : Nat) (val : UInt32) (c : UInt8) (cs : Bytes) (hc : c ≠ 0) :
    b64Step ⟨false, u⟩ nul (fuel + 1) i val (c :: cs) =
      match value64 u c with
      | some v => b64Step ⟨false, u⟩ nul fuel (i + 1) ((val <<< 6) + UInt32.ofNat v) cs
      | none => if c = 61 ∧ (i = 2 ∨ i = 3) then .endAt i val else .bad := by
  have key : ∀ u, ∀ c : UInt8, c ≠ 0 → strchrIdx base64Chars (let c' := if c == 45 && u then 43 else c; if c' == 95 && u then 47 else c') = value64 u c := by
    intro u; cases u <;> (apply forall_byte; decide +kernel)
  rw [b64Step]
  have k := key u c hc
  dsimp only at k ⊢
  rw [k]
  cases e : value64 u c with
  | some v =>
    simp only [Bool.false_and, Bool.false_eq_true, if_false, List.isEmpty_cons, Bool.not_false, Bool.and_true]
    rw [Nat.mod_eq_of_lt (value64_lt u c v e)]
  | none =>
    simp only [Bool.and_false, Bool.or_false, beq_iff_eq, Bool.or_eq_true]
    by_cases h1 : c = 61
    · by_cases h2 : i = 2 ∨ i = 3
      · rw [if_pos h1, if_pos h2.symm, if_pos ⟨h1, h2⟩]
      · rw [if_pos h1, if_neg (fun h => h2 h.symm), if_neg (fun h => h2 h.2)]
    · rw [if_neg h1, if_neg (fun h => h1 h.1)]

theorem value64_pad (u : Bool) : value64 u 61 = none := by cases u <;> decide +kernel

theorem shl6_zero (s : Nat) (hs : s < 64) : ((0 : UInt32) <<< 6 + UInt32.ofNat s).toNat = s := by
  rw [shl6_add 0 s (by decide) hs]; simp

/-- One group of four characters. -/
theorem b64Step_group (u nul : Bool) (c1 c2 c3 c4 : UInt8) (rest : Bytes) (h1 : c1 ≠ 0) (h2 : c2 ≠ 0) (h3 : c3 ≠ 0) (h4 : c4 ≠ 0) :
    match value64 u c1, value64 u c2, value64 u c3, value64 u c4 with
    | some a, some b, some c, some d => ∃ v, b64Step ⟨false, u⟩ nul 4 0 0 (c1 :: c2 :: c3 :: c4 :: rest) = .full v ∧ v.toNat = ((a * 64 + b) * 64 + c) * 64 + d
    | some a, some b, some c, none => if c4 = 61 then
        ∃ v, b64Step ⟨false, u⟩ nul 4 0 0 (c1 :: c2 :: c3 :: c4 :: rest) = .endAt 3 v ∧ v.toNat = (a * 64 + b) * 64 + c
      else b64Step ⟨false, u⟩ nul 4 0 0 (c1 :: c2 :: c3 :: c4 :: rest) = .bad
    | some a, some b, none, _ => if c3 = 61 then
        ∃ v, b64Step ⟨false, u⟩ nul 4 0 0 (c1 :: c2 :: c3 :: c4 :: rest) = .endAt 2 v ∧ v.toNat = a * 64 + b
      else b64Step ⟨false, u⟩ nul 4 0 0 (c1 :: c2 :: c3 :: c4 :: rest) = .bad
    | _, _, _, _ => b64Step ⟨false, u⟩ nul 4 0 0 (c1 :: c2 :: c3 :: c4 :: rest) = .bad := by
  rw [b64Step_any u nul 3 0 0 c1 _ h1]
  cases e1 : value64 u c1 with
  | none => dsimp only; rw [if_neg (by omega)]
  | some a =>
    have l1 := shl6_zero a (value64_lt u c1 a e1)
    have g1 := value64_lt u c1 a e1
    dsimp only
    rw [b64Step_any u nul 2 1 _ c2 _ h2]
    cases e2 : value64 u c2 with
    | none => dsimp only; rw [if_neg (by omega)]
    | some b =>
      have g2 := value64_lt u c2 b e2
      have l2 := shl6_add _ b (by rw [l1]; omega) g2
      rw [l1] at l2
      dsimp only
      rw [b64Step_any u nul 1 2 _ c3 _ h3]
      cases e3 : value64 u c3 with
      | none =>
        dsimp only
        by_cases h : c3 = 61
        · rw [if_pos h, if_pos ⟨h, Or.inl rfl⟩]; exact ⟨_, rfl, l2⟩
        · rw [if_neg h, if_neg (fun hh => h hh.1)]
      | some c =>
        have g3 := value64_lt u c3 c e3
        have l3 := shl6_add _ c (by rw [l2]; omega) g3
        rw [l2] at l3
        dsimp only
        rw [b64Step_any u nul 0 3 _ c4 _ h4]
        cases e4 : value64 u c4 with
        | none =>
          dsimp only
          by_cases h : c4 = 61
          · rw [if_pos h, if_pos ⟨h, Or.inr rfl⟩]; exact ⟨_, rfl, l3⟩
          · rw [if_neg h, if_neg (fun hh => h hh.1)]
        | some d =>
          have g4 := value64_lt u c4 d e4
          have l4 := shl6_add _ d (by rw [l3]; omega) g4
          rw [l3] at l4
          exact ⟨_, rfl, l4⟩

theorem decode64_length (u : Bool) : ∀ t bs : Bytes, decode64 u t = some bs → bs.length ≤ 3 * (t.length / 4)
  | [], bs, h => by simp [decode64] at h; simp [h]
  | [_], bs, h => by simp [decode64] at h
  | [_, _], bs, h => by simp [decode64] at h
  | [_, _, _], bs, h => by simp [decode64] at h
  | c1 :: c2 :: c3 :: c4 :: rest, bs, h => by
    rw [decode64] at h
    simp only [List.length_cons]
    cases e1 : value64 u c1 with
    | none => rw [e1] at h; simp at h
    | some a =>
    cases e2 : value64 u c2 with
    | none => rw [e1, e2] at h; simp at h
    | some b =>
      rw [e1, e2] at h
      simp only [Option.bind_eq_bind, Option.bind_some, Option.pure_def] at h
      split at h
      · have := Option.some.inj h; subst this; simp; omega
      · cases e3 : value64 u c3 with
        | none => rw [e3] at h; simp at h
        | some c =>
          rw [e3] at h
          simp only [Option.bind_some] at h
          split at h
          · have := Option.some.inj h; subst this; simp; omega
          · cases e4 : value64 u c4 with
            | none => rw [e4] at h; simp at h
            | some d =>
              cases e5 : decode64 u rest with
              | none => rw [e4, e5] at h; simp at h
              | some tl =>
                rw [e4, e5] at h
                simp only [Option.bind_some] at h
                have := Option.some.inj h
                subst this
                have := decode64_length u rest tl e5
                simp
                omega

theorem fromBase64Loop_any (u nul : Bool) (outSize : Nat) : ∀ (t done : Bytes) (fuel : Nat), (∀ c ∈ t, c ≠ 0) → t.length ≤ fuel → t.length % 4 = 0 → done.length ≤ outSize →
    fromBase64Loop ⟨false, u⟩ nul outSize fuel t done =
      .ok ((decode64 u t).bind fun bs => if done.length + bs.length ≤ outSize then some (done ++ bs) else none)
  | [], done, fuel, _, _, _, ho => by
    cases fuel <;> simp [fromBase64Loop, decode64, ho]
  | [_], _, _, _, _, h, _ => by simp at h
  | [_, _], _, _, _, _, h, _ => by simp at h
  | [_, _, _], _, _, _, _, h, _ => by simp at h
  | c1 :: c2 :: c3 :: c4 :: rest, done, fuel, hz, hf, hm, ho => by
    have h1 := hz c1 (by simp)
    have h2 := hz c2 (by simp)
    have h3 := hz c3 (by simp)
    have h4 := hz c4 (by simp)
    have hg := b64Step_group u nul c1 c2 c3 c4 rest h1 h2 h3 h4
    simp only [List.length_cons] at hf hm
    cases fuel with
    | zero => omega
    | succ fuel =>
      rw [fromBase64Loop]
      rw [show (List.isEmpty (c1 :: c2 :: c3 :: c4 :: rest)) = false from rfl,
        show (decide ((c1 :: c2 :: c3 :: c4 :: rest).length ≤ 3) && !(⟨false, u⟩ : B64Flags).noPadding) = false by simp]
      simp only [Bool.false_eq_true, if_false]
      rw [decode64]
      cases e1 : value64 u c1 with
      | none => simp only [e1] at hg; rw [hg]; rfl
      | some a =>
      have g1 := value64_lt u c1 a e1
      cases e2 : value64 u c2 with
      | none => simp only [e1, e2] at hg; rw [hg]; rfl
      | some b =>
        have g2 := value64_lt u c2 b e2
        simp only [Option.bind_eq_bind, Option.bind_some, Option.pure_def]
        cases e3 : value64 u c3 with
        | none =>
          simp only [e1, e2, e3] at hg
          by_cases hp : c3 = 61
          · rw [if_pos hp] at hg ⊢
            obtain ⟨v, k1, k2⟩ := hg
            rw [k1]
            dsimp only
            rw [if_neg (by decide), Option.bind_some,
              shr_toUInt8 v 4 (by decide) (UInt8.ofNat (a * 4 + b / 16)) (by rw [k2, UInt8.toNat_ofNat', show (4 : UInt32).toNat = 4 from rfl]; omega)]
            by_cases hr : outSize < done.length + 1
            · rw [if_pos hr, if_neg (by simp; omega)]
            · rw [if_neg hr, if_pos (by simp; omega)]
          · rw [if_neg hp] at hg ⊢
            rw [hg]; rfl
        | some c =>
          have g3 := value64_lt u c3 c e3
          rw [if_neg (show ¬ c3 = 61 by rintro rfl; rw [value64_pad] at e3; simp at e3)]
          simp only [Option.bind_some]
          cases e4 : value64 u c4 with
          | none =>
            simp only [e1, e2, e3, e4] at hg
            by_cases hp : c4 = 61
            · rw [if_pos hp] at hg ⊢
              obtain ⟨v, k1, k2⟩ := hg
              rw [k1]
              dsimp only
              rw [if_pos (by decide), Option.bind_some]
              have hv : (v >>> 2).toNat = ((a * 64 + b) * 64 + c) / 4 := by
                rw [UInt32.toNat_shiftRight, k2, Nat.shiftRight_eq_div_pow]
                simp
              rw [shr_toUInt8 (v >>> 2) 8 (by decide) (UInt8.ofNat (a * 4 + b / 16)) (by rw [hv, UInt8.toNat_ofNat', show (8 : UInt32).toNat = 8 from rfl]; omega),
                toUInt8_of (v >>> 2) (UInt8.ofNat (b % 16 * 16 + c / 4)) (by rw [hv, UInt8.toNat_ofNat']; omega)]
              by_cases hr : outSize < done.length + 2
              · rw [if_pos hr, if_neg (by simp; omega)]
              · rw [if_neg hr, if_pos (by simp; omega)]
            · rw [if_neg hp] at hg ⊢
              rw [hg]; rfl
          | some d =>
            have g4 := value64_lt u c4 d e4
            rw [if_neg (show ¬ c4 = 61 by rintro rfl; rw [value64_pad] at e4; simp at e4)]
            simp only [e1, e2, e3, e4] at hg
            obtain ⟨v, k1, k2⟩ := hg
            rw [k1]
            dsimp only
            by_cases hr : outSize < done.length + 3
            · rw [if_pos hr]
              cases decode64 u rest with
              | none => rfl
              | some tl =>
                simp only [Option.bind_some]
                rw [if_neg (by simp; omega)]
            rw [if_neg hr,
              shr_toUInt8 v 16 (by decide) (UInt8.ofNat (a * 4 + b / 16)) (by rw [k2, UInt8.toNat_ofNat', show (16 : UInt32).toNat = 16 from rfl]; omega),
              shr_toUInt8 v 8 (by decide) (UInt8.ofNat (b % 16 * 16 + c / 4)) (by rw [k2, UInt8.toNat_ofNat', show (8 : UInt32).toNat = 8 from rfl]; omega),
              toUInt8_of v (UInt8.ofNat (c % 4 * 64 + d)) (by rw [k2, UInt8.toNat_ofNat']; omega),
              show List.drop 4 (c1 :: c2 :: c3 :: c4 :: rest) = rest from rfl,
              fromBase64Loop_any u nul outSize rest _ fuel (fun x hx => hz x (by simp [hx])) (by omega) (by omega) (by simp; omega)]
            cases decode64 u rest with
            | none => rfl
            | some tl =>
              simp only [Option.bind_some]
              by_cases hr2 : done.length + 3 + tl.length ≤ outSize
              · rw [if_pos (by simpa using hr2), if_pos (by simp; omega)]
                simp
              · rw [if_neg (by simpa using hr2), if_neg (by simp; omega)]

theorem fromBase64Length_le (t : Bytes) (u : Bool) (h0 : t ≠ []) (hm : t.length % 4 = 0) : ∃ n, fromBase64Length t ⟨false, u⟩ = .ok n ∧ n ≤ 3 * (t.length / 4) ∧ 3 * (t.length / 4) ≤ n + 2 := by
  have hp : 0 < t.length := List.length_pos_iff.mpr h0
  unfold fromBase64Length
  dsimp only
  rw [if_neg (by simp [hm]), if_neg (by decide), if_neg (by omega)]
  refine ⟨_, rfl, ?_, ?_⟩ <;> split <;> split <;> omega

/-- `fromBase64Length` is enough for what is decoded. -/
theorem decode64_le (u : Bool) : ∀ t bs : Bytes, t ≠ [] → t.length % 4 = 0 → decode64 u t = some bs →
    ∃ pre x y, t = pre ++ [x, y] ∧ bs.length + (if y = 61 then 1 else 0) + (if x = 61 then 1 else 0) ≤ 3 * (t.length / 4)
  | [], bs, h, _, _ => absurd rfl h
  | [_], bs, _, h, _ => by simp at h
  | [_, _], bs, _, h, _ => by simp at h
  | [_, _, _], bs, _, h, _ => by simp at h
  | c1 :: c2 :: c3 :: c4 :: rest, bs, h0, hm, h => by
    simp only [List.length_cons] at hm
    have hl := decode64_length u _ _ h
    rw [decode64] at h
    simp only [List.length_cons] at hl ⊢
    cases e1 : value64 u c1 with
    | none => rw [e1] at h; simp at h
    | some a =>
    cases e2 : value64 u c2 with
    | none => rw [e1, e2] at h; simp at h
    | some b =>
      rw [e1, e2] at h
      simp only [Option.bind_eq_bind, Option.bind_some, Option.pure_def] at h
      have short : ∀ n : Nat, bs.length = n → n ≤ 2 → (rest = [] → n + (if c4 = 61 then 1 else 0) + (if c3 = 61 then 1 else 0) ≤ 3) →
          ∃ pre x y, c1 :: c2 :: c3 :: c4 :: rest = pre ++ [x, y] ∧ bs.length + (if y = 61 then 1 else 0) + (if x = 61 then 1 else 0) ≤ 3 * ((rest.length + 1 + 1 + 1 + 1) / 4) := by
        intro n hn h2 h3
        by_cases hr : rest = []
        · subst hr
          exact ⟨[c1, c2], c3, c4, rfl, by rw [hn]; have := h3 rfl; simpa using this⟩
        · have h4 : 4 ≤ rest.length := by
            have := List.length_pos_iff.mpr hr
            omega
          obtain ⟨pre, x, y, e⟩ : ∃ pre x y, rest = pre ++ [x, y] := by
            refine ⟨rest.take (rest.length - 2), rest[rest.length - 2], rest[rest.length - 1], ?_⟩
            conv_lhs => rw [← List.take_append_drop (rest.length - 2) rest]
            congr 1
            rw [List.drop_eq_getElem_cons (by omega), List.drop_eq_getElem_cons (by omega), List.drop_eq_nil_of_le (by omega)]
            congr 3
            omega
          refine ⟨c1 :: c2 :: c3 :: c4 :: pre, x, y, by rw [e]; rfl, ?_⟩
          rw [hn]
          split <;> split <;> omega
      split at h
      · rename_i h3
        have := Option.some.inj h; subst this
        exact short 1 rfl (by omega) (fun _ => by rw [if_pos h3]; split <;> omega)
      · rename_i h3
        cases e3 : value64 u c3 with
        | none => rw [e3] at h; simp at h
        | some c =>
          rw [e3] at h
          simp only [Option.bind_some] at h
          split at h
          · rename_i h4
            have := Option.some.inj h; subst this
            exact short 2 rfl (by omega) (fun _ => by rw [if_pos h4, if_neg h3])
          · rename_i h4
            cases e4 : value64 u c4 with
            | none => rw [e4] at h; simp at h
            | some d =>
              cases e5 : decode64 u rest with
              | none => rw [e4, e5] at h; simp at h
              | some tl =>
                rw [e4, e5] at h
                simp only [Option.bind_some] at h
                have := Option.some.inj h
                subst this
                by_cases hr : rest = []
                · subst hr
                  refine ⟨[c1, c2], c3, c4, rfl, ?_⟩
                  rw [if_neg h3, if_neg h4]
                  simpa using hl
                · obtain ⟨pre, x, y, g1, g2⟩ := decode64_le u rest tl hr (by omega) e5
                  refine ⟨c1 :: c2 :: c3 :: c4 :: pre, x, y, by rw [g1]; rfl, ?_⟩
                  simp only [List.cons_append, List.nil_append, List.length_cons]
                  omega

theorem decode64_fits (u : Bool) (t bs : Bytes) (h0 : t ≠ []) (hm : t.length % 4 = 0) (h : decode64 u t = some bs) (n : Nat) (hn : fromBase64Length t ⟨false, u⟩ = .ok n) :
    bs.length ≤ n := by
  obtain ⟨pre, x, y, e, hl⟩ := decode64_le u t bs h0 hm h
  have hp : 0 < t.length := List.length_pos_iff.mpr h0
  have hlen : t.length = pre.length + 2 := by rw [e]; simp
  unfold fromBase64Length at hn
  dsimp only at hn
  rw [if_neg (by simp [hm]), if_neg (by decide), if_neg (by omega)] at hn
  have hy : t.getD (t.length - 1) 0 = y := by
    rw [hlen, e, List.getD_eq_getElem?_getD, List.getElem?_append_right (by omega)]
    simp
  have hx : t.getD (t.length - 2) 0 = x := by
    rw [hlen, e, List.getD_eq_getElem?_getD, List.getElem?_append_right (by omega)]
    simp
  rw [hx, hy] at hn
  have hn := C.ok.inj hn
  simp only [beq_iff_eq] at hn
  rw [← hn]
  split at hl <;> split at hl <;> simp_all <;> omega

/-- C80: what `fromBase64` does with any padded text without NUL characters, whose length is a multiple of four, given a buffer of
`fromBase64Length` bytes or more: the bytes of the text, or 0 and a zeroed buffer if it is not Base64. -/
theorem C80_exact (t out : Bytes) (u nul : Bool) (h0 : t ≠ []) (hz : ∀ c ∈ t, c ≠ 0) (hm : t.length % 4 = 0) (n : Nat) (hn : fromBase64Length t ⟨false, u⟩ = .ok n)
    (ho : n ≤ out.length) :
    fromBase64 t out ⟨false, u⟩ nul = .ok (match decode64 u t with
      | some bs => (bs.length, bs ++ zeros (out.length - bs.length))
      | none => (0, zeros out.length)) := by
  unfold fromBase64
  rw [hn, C.bind_ok, if_neg (by omega), fromBase64Loop_any u nul out.length t [] t.length hz (by omega) hm (by simp), C.bind_ok]
  cases e : decode64 u t with
  | none => rfl
  | some bs =>
    have := decode64_fits u t bs h0 hm e n hn
    rw [Option.bind_some, if_pos (by simp; omega), List.nil_append]

example : (str "cHNidP8=") ≠ [] ∧ (∀ c ∈ str "cHNidP8=", c ≠ 0) ∧ (str "cHNidP8=").length % 4 = 0 ∧ fromBase64Length (str "cHNidP8=") ⟨false, false⟩ = .ok 5 ∧
    decode64 false (str "cHNidP8=") = some [0x70, 0x73, 0x62, 0x74, 0xff] ∧ decode64 false (str "cHNid.8=") = none := by decide +kernel

/-- C80: text without padding characters that decodes is the Base64 text of the result: no two such texts have the same bytes. -/
theorem C80_unpadded_unique : ∀ t bs : Bytes, 61 ∉ t → decode64 false t = some bs → t = base64Text true false bs
  | [], bs, _, h => by simp [decode64] at h; rw [h, base64Text_nil]
  | [_], bs, _, h => by simp [decode64] at h
  | [_, _], bs, _, h => by simp [decode64] at h
  | [_, _, _], bs, _, h => by simp [decode64] at h
  | c1 :: c2 :: c3 :: c4 :: rest, bs, hp, h => by
    simp only [List.mem_cons, not_or] at hp
    rw [decode64] at h
    cases e1 : value64 false c1 with
    | none => rw [e1] at h; simp at h
    | some a =>
    cases e2 : value64 false c2 with
    | none => rw [e1, e2] at h; simp at h
    | some b =>
    cases e3 : value64 false c3 with
    | none => rw [e1, e2, e3] at h; simp [Ne.symm hp.2.2.1] at h
    | some c =>
    cases e4 : value64 false c4 with
    | none => rw [e1, e2, e3, e4] at h; simp [Ne.symm hp.2.2.1, Ne.symm hp.2.2.2.1] at h
    | some d =>
    cases e5 : decode64 false rest with
    | none => rw [e1, e2, e3, e4, e5] at h; simp [Ne.symm hp.2.2.1, Ne.symm hp.2.2.2.1] at h
    | some tl =>
      have ih := C80_unpadded_unique rest tl hp.2.2.2.2 e5
      rw [e1, e2, e3, e4, e5] at h
      simp only [Option.bind_eq_bind, Option.bind_some, Option.pure_def] at h
      rw [if_neg (Ne.symm hp.2.2.1), if_neg (Ne.symm hp.2.2.2.1)] at h
      have := Option.some.inj h
      subst this
      have key : ∀ c : UInt8, ((value64 false c).all (fun v => b64ch false v == c)) = true := by apply forall_byte; decide +kernel
      have ch : ∀ c v, value64 false c = some v → b64ch false v = c := by
        intro c v hv
        have := key c
        rw [hv] at this
        simpa using this
      have g1 := value64_lt _ _ _ e1
      have g2 := value64_lt _ _ _ e2
      have g3 := value64_lt _ _ _ e3
      have g4 := value64_lt _ _ _ e4
      rw [List.cons_append, List.cons_append, List.cons_append, List.nil_append, base64Text_cons3, ← ih]
      unfold quad
      simp only [UInt8.toNat_ofNat']
      rw [show (a * 4 + b / 16) % 2 ^ 8 / 4 = a by omega, show (a * 4 + b / 16) % 2 ^ 8 % 4 * 16 + (b % 16 * 16 + c / 4) % 2 ^ 8 / 16 = b by omega,
        show (b % 16 * 16 + c / 4) % 2 ^ 8 % 16 * 4 + (c % 4 * 64 + d) % 2 ^ 8 / 64 = c by omega, show (c % 4 * 64 + d) % 2 ^ 8 % 64 = d by omega,
        ch _ _ e1, ch _ _ e2, ch _ _ e3, ch _ _ e4]
      rfl

example : (61 : UInt8) ∉ str "cHNidP8B" ∧ decode64 false (str "cHNidP8B") = some [0x70, 0x73, 0x62, 0x74, 0xff, 1] := by decide +kernel

/-- C80: everything after the first padding is ignored. -/
theorem C80_after_padding (u : Bool) (c1 c2 c4 c4' : UInt8) (rest rest' : Bytes) : decode64 u (c1 :: c2 :: 61 :: c4 :: rest) = decode64 u (c1 :: c2 :: 61 :: c4' :: rest') := by
  rw [decode64, decode64]
  cases value64 u c1 <;> cases value64 u c2 <;> simp

/-- C80: the unused bits of the last character are ignored, so different texts have the same bytes. -/
theorem C80_not_unique : decode64 false (str "QR==") = decode64 false (str "QQ==") ∧ decode64 false (str "QQ==????") = decode64 false (str "QQ==") ∧ decode64 false (str "QQ=?") = some [0x41] := by decide +kernel

/-- C80: decoding padded text that is not empty is always defined, whatever the text and the buffer, and returns no more than the size of the buffer. -/
theorem C80_safe (t out : Bytes) (u nul : Bool) (h0 : t ≠ []) : ∃ n b, fromBase64 t out ⟨false, u⟩ nul = .ok (n, b) ∧ n ≤ out.length ∧ b.length = out.length := by
  have hstep : ∀ (fuel i : Nat) (val : UInt32) (rest : Bytes) (nul : Bool), fuel ≤ rest.length → b64Step ⟨false, u⟩ nul fuel i val rest ≠ .oob := by
    intro fuel
    induction fuel with
    | zero => intro i val rest nul _; simp [b64Step]
    | succ fuel ih =>
      intro i val rest nul hl
      cases rest with
      | nil => simp at hl
      | cons c cs =>
        rw [b64Step]
        dsimp only
        split
        · rw [if_neg (by simp)]
          exact ih _ _ _ _ (by simpa using hl)
        · simp only [ne_eq]
          generalize (if ((if (c == 45 && u) = true then 43 else c) == 95 && u) = true then (47 : UInt8) else if (c == 45 && u) = true then 43 else c) = x
          repeat' split
          all_goals simp
  have hloop : ∀ (fuel : Nat) (rest done : Bytes), done.length ≤ out.length → ∃ r, fromBase64Loop ⟨false, u⟩ nul out.length fuel rest done = .ok r ∧ ∀ d, r = some d → d.length ≤ out.length := by
    intro fuel
    induction fuel with
    | zero => intro rest done hd; exact ⟨_, rfl, fun d e => by cases e; exact hd⟩
    | succ fuel ih =>
      intro rest done hd
      rw [fromBase64Loop]
      split
      · exact ⟨_, rfl, fun d e => by cases e; exact hd⟩
      · split
        · exact ⟨_, rfl, fun d e => by cases e⟩
        · rename_i hl
          have hl : 3 < rest.length := by simpa using hl
          have := hstep 4 0 0 rest nul hl
          split
          · contradiction
          · exact ⟨_, rfl, fun d e => by cases e⟩
          · split
            · dsimp only
              split
              · exact ⟨_, rfl, fun d e => by cases e⟩
              · exact ⟨_, rfl, fun d e => by cases e; simp; omega⟩
            · dsimp only
              split
              · exact ⟨_, rfl, fun d e => by cases e⟩
              · exact ⟨_, rfl, fun d e => by cases e; simp; omega⟩
          · split
            · exact ⟨_, rfl, fun d e => by cases e⟩
            · exact ih _ _ (by simp; omega)
  have hlen : ∃ n, fromBase64Length t ⟨false, u⟩ = .ok n := by
    by_cases hm : t.length % 4 = 0
    · obtain ⟨n, h, -⟩ := fromBase64Length_le t u h0 hm; exact ⟨n, h⟩
    · exact ⟨0, by unfold fromBase64Length; simp [hm]⟩
  obtain ⟨n, hn⟩ := hlen
  unfold fromBase64
  rw [hn, C.bind_ok]
  split
  · exact ⟨_, _, rfl, by omega, by simp [zeros]⟩
  · obtain ⟨r, h1, h2⟩ := hloop t.length t [] (by simp)
    rw [h1, C.bind_ok]
    cases r with
    | none => exact ⟨_, _, rfl, by omega, by simp [zeros]⟩
    | some d => exact ⟨_, _, rfl, h2 d rfl, by have := h2 d rfl; simp [zeros]; omega⟩

/-- Text that is not Base64 at all, and a buffer that is too small. -/
example : str "%%%%%" ≠ [] ∧ fromBase64 (str "%%%%%") (zeros 2) ⟨false, false⟩ true = .ok (0, [0, 0]) ∧ fromBase64 (str "cHNi") (zeros 2) ⟨false, false⟩ true = .ok (0, [0, 0]) := by
  decide +kernel

end UB
