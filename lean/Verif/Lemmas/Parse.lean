import Verif.Spec.Parse
import Verif.Lemmas.Ints
import Mathlib.Tactic.SplitIfs

/-
The declarative reader is the inverse of the wire format.
-/

namespace UB.Spec

theorem compactSize_small {n : Nat} (h : n < 253) : compactSize n = [UInt8.ofNat n] := by simp [compactSize, h]
theorem compactSize_2 {n : Nat} (h : ¬ n < 253) (h2 : n < 65536) : compactSize n = 0xfd :: leBytes 2 n := by simp [compactSize, h, h2]
theorem compactSize_4 {n : Nat} (h : ¬ n < 65536) (h2 : n < 4294967296) : compactSize n = 0xfe :: leBytes 4 n := by
  simp [compactSize, h, h2, show ¬ n < 253 by omega]
theorem compactSize_8 {n : Nat} (h : ¬ n < 4294967296) : compactSize n = 0xff :: leBytes 8 n := by
  simp [compactSize, h, show ¬ n < 253 by omega, show ¬ n < 65536 by omega]

theorem readVar_varBytes (d rest : Bytes) (hd : d.length < 2 ^ 31) : readVar (varBytes d ++ rest) = .ok d rest := by
  unfold varBytes
  by_cases h1 : d.length < 253
  · rw [compactSize_small h1]
    have hb : (UInt8.ofNat d.length).toNat = d.length := by simp; omega
    have hlt : UInt8.ofNat d.length < 0xfd := by
      rw [UInt8.lt_iff_toNat_lt, hb]; exact h1
    have hne : UInt8.ofNat d.length ≠ 0xff := by
      intro h; rw [h] at hb; simp at hb; omega
    simp only [List.cons_append, List.nil_append, readVar, prefixValue, if_neg hne, extraBytes, if_pos hlt]
    simp [hb, compactSize_small h1, show ¬ (2147483648 ≤ d.length) by omega]
  · by_cases h2 : d.length < 65536
    · rw [compactSize_2 h1 h2]
      have hv : leValue (leBytes 2 d.length) = d.length := by rw [leValue_leBytes]; omega
      have e : List.take 2 (leBytes 2 d.length ++ (d ++ rest)) = leBytes 2 d.length := by
        rw [List.take_append_of_le_length (by simp)]; apply List.take_of_length_le; simp
      have e2 : List.drop 2 (leBytes 2 d.length ++ (d ++ rest)) = d ++ rest := by
        rw [List.drop_append_of_le_length (by simp), List.drop_of_length_le (by simp)]; rfl
      simp only [List.cons_append, readVar, prefixValue, List.append_assoc, if_neg (show ¬ ((0xfd : UInt8) = 0xff) by decide),
        show extraBytes 0xfd = 2 by decide, e, e2, hv]
      simp [compactSize_2 h1 h2, show ¬ (2147483648 ≤ d.length) by omega]
    · rw [compactSize_4 h2 (by omega)]
      have hv : leValue (leBytes 4 d.length) = d.length := by rw [leValue_leBytes]; omega
      have e : List.take 4 (leBytes 4 d.length ++ (d ++ rest)) = leBytes 4 d.length := by
        rw [List.take_append_of_le_length (by simp)]; apply List.take_of_length_le; simp
      have e2 : List.drop 4 (leBytes 4 d.length ++ (d ++ rest)) = d ++ rest := by
        rw [List.drop_append_of_le_length (by simp), List.drop_of_length_le (by simp)]; rfl
      simp only [List.cons_append, readVar, prefixValue, List.append_assoc, if_neg (show ¬ ((0xfe : UInt8) = 0xff) by decide),
        show extraBytes 0xfe = 4 by decide, e, e2, hv]
      simp [compactSize_4 h2 (show d.length < 4294967296 by omega), show ¬ (2147483648 ≤ d.length) by omega]

theorem byte_cases (b : UInt8) : (b < 0xfd ∧ b.toNat < 253) ∨ b = 0xfd ∨ b = 0xfe ∨ b = 0xff := by
  revert b; apply forall_byte; decide +kernel

theorem readVar_sound (p d rest : Bytes) (h : readVar p = .ok d rest) : p = varBytes d ++ rest ∧ d.length < 2 ^ 31 := by
  cases p with
  | nil => simp [readVar] at h
  | cons b r =>
    simp only [readVar] at h
    split_ifs at h with h1 h2 h3 h4 h5
    simp only [Outcome.ok.injEq] at h
    obtain ⟨rfl, rfl⟩ := h
    simp only [not_or, not_not, not_le, not_lt] at h3 h4 h5
    have hn := h5
    obtain ⟨h4, h4b⟩ := h4
    generalize hN : prefixValue b r = n at *
    unfold prefixValue at hN
    have hl : ((r.drop (extraBytes b)).take n).length = n := by simp at hn ⊢; omega
    refine ⟨?_, by omega⟩
    unfold varBytes
    rw [hl]
    have hc : compactSize n = b :: r.take (extraBytes b) := by
      rcases byte_cases b with ⟨hb, hb'⟩ | rfl | rfl | rfl
      · have : extraBytes b = 0 := by simp [extraBytes, hb]
        rw [this] at hN ⊢
        simp only [if_true] at hN
        rw [← hN, compactSize_small hb']; simp
      · have : extraBytes 0xfd = 2 := by decide
        rw [this] at hN h4 h3 ⊢
        simp only [show ¬ (2 = 0) by omega, if_false] at hN
        have h6 : (r.take 2).length = 2 := by simp; omega
        have h7 := leValue_lt (r.take 2)
        rw [h6] at h7
        have h8 : ¬ n < 253 := by
          intro hh; rw [compactSize_small hh] at h4; simp at h4
        rw [compactSize_2 h8 (by omega), ← hN]
        congr 1
        have := leBytes_leValue (r.take 2)
        rw [h6] at this; exact this
      · have : extraBytes 0xfe = 4 := by decide
        rw [this] at hN h4 h3 ⊢
        simp only [show ¬ (4 = 0) by omega, if_false] at hN
        have h6 : (r.take 4).length = 4 := by simp; omega
        have h7 := leValue_lt (r.take 4)
        rw [h6] at h7
        have h8 : ¬ n < 65536 := by
          intro hh
          by_cases h9 : n < 253
          · rw [compactSize_small h9] at h4; simp at h4
          · rw [compactSize_2 h9 hh] at h4; simp at h4
        rw [compactSize_4 h8 (by omega), ← hN]
        congr 1
        have := leBytes_leValue (r.take 4)
        rw [h6] at this; exact this
      · exact absurd rfl h1
    rw [hc, List.append_assoc, List.take_append_drop, List.cons_append, List.take_append_drop]

/-- `f` reads exactly the serializations `ser x` of valid `x`. -/
structure Codec {β : Type} (f : Bytes → Outcome β) (ser : β → Bytes) (P : β → Prop) : Prop where
  complete : ∀ x rest, P x → f (ser x ++ rest) = .ok x rest
  sound : ∀ p x rest, f p = .ok x rest → p = ser x ++ rest ∧ P x

theorem codecVar : Codec readVar varBytes (fun d => d.length < 2 ^ 31) :=
  ⟨fun d rest h => readVar_varBytes d rest h, readVar_sound⟩

/-- A valid input (without witness). -/
structure ValidIn (i : In) : Prop where
  hash : i.prevHash.length = 32
  index : i.prevIndex < 2 ^ 32
  script : i.script.length < 2 ^ 31
  sequence : i.sequence < 2 ^ 32

structure ValidOut (o : Out) : Prop where
  amount : o.amount < 2 ^ 64
  script : o.script.length < 2 ^ 31

theorem take_drop_split {α : Type} (p : List α) (a b : Nat) : p.take (a + b) = p.take a ++ (p.drop a).take b := by
  rw [List.take_add]

theorem leBytes_take (p : Bytes) (k : Nat) (h : k ≤ p.length) : leBytes k (leValue (p.take k)) = p.take k := by
  have := leBytes_leValue (p.take k)
  rwa [show (p.take k).length = k by simp; omega] at this

theorem codecIn : Codec readIn inBytes (fun i => ValidIn i ∧ i.witness = []) where
  complete := by
    rintro ⟨h, ix, s, q, w⟩ rest ⟨⟨h1, h2, h3, h4⟩, h5⟩
    simp only at h1 h2 h3 h4 h5
    subst h5
    have e0 : inBytes ⟨h, ix, s, q, []⟩ ++ rest = h ++ (leBytes 4 ix ++ (varBytes s ++ (leBytes 4 q ++ rest))) := by
      simp [inBytes]
    have e1 : (h ++ (leBytes 4 ix ++ (varBytes s ++ (leBytes 4 q ++ rest)))).drop 32 = leBytes 4 ix ++ (varBytes s ++ (leBytes 4 q ++ rest)) := by
      rw [List.drop_append_of_le_length (by omega), List.drop_of_length_le (by omega)]; rfl
    have e2 : (h ++ (leBytes 4 ix ++ (varBytes s ++ (leBytes 4 q ++ rest)))).drop 36 = varBytes s ++ (leBytes 4 q ++ rest) := by
      rw [show 36 = 32 + 4 by rfl, ← List.drop_drop, e1, List.drop_append_of_le_length (by simp), List.drop_of_length_le (by simp)]; rfl
    have e3 : (h ++ (leBytes 4 ix ++ (varBytes s ++ (leBytes 4 q ++ rest)))).take 32 = h := by
      rw [List.take_append_of_le_length (by omega), List.take_of_length_le (by omega)]
    have t4 : ∀ (n : Nat) (l : Bytes), (leBytes 4 n ++ l).take 4 = leBytes 4 n := fun n l => by
      rw [List.take_append_of_le_length (by simp), List.take_of_length_le (by simp)]
    have d4 : ∀ (n : Nat) (l : Bytes), (leBytes 4 n ++ l).drop 4 = l := fun n l => by
      rw [List.drop_append_of_le_length (by simp), List.drop_of_length_le (by simp)]; rfl
    rw [e0]
    unfold readIn
    rw [if_neg (by simp; omega), e2, readVar_varBytes s _ h3]
    simp only [e1, e3, t4, d4, leValue_leBytes]
    rw [if_neg (by simp)]
    congr 2 <;> omega
  sound := by
    intro p x rest h
    unfold readIn at h
    split_ifs at h with h1
    cases hv : readVar (p.drop 36) with
    | more => simp [hv] at h
    | bad => simp [hv] at h
    | ok d r =>
      simp only [hv] at h
      split_ifs at h with h2
      simp only [Outcome.ok.injEq] at h
      obtain ⟨rfl, rfl⟩ := h
      obtain ⟨e, hd⟩ := readVar_sound _ _ _ hv
      have l1 := leValue_lt ((p.drop 32).take 4)
      have l2 := leValue_lt (r.take 4)
      refine ⟨?_, ⟨by simp; omega, ?_, hd, ?_⟩, rfl⟩
      · unfold inBytes
        simp only
        rw [leBytes_take _ 4 (by simp; omega), leBytes_take _ 4 (by omega)]
        calc p = p.take 36 ++ p.drop 36 := (List.take_append_drop _ _).symm
          _ = _ := by
            rw [e, show p.take 36 = p.take 32 ++ (p.drop 32).take 4 from take_drop_split p 32 4]
            simp
      · have : ((p.drop 32).take 4).length = 4 := by simp; omega
        rw [this] at l1; simpa using l1
      · have : (r.take 4).length = 4 := by simp; omega
        rw [this] at l2; simpa using l2

theorem codecOut : Codec readOut outBytes ValidOut where
  complete := by
    rintro ⟨a, s⟩ rest ⟨h1, h2⟩
    simp only at h1 h2
    have e0 : outBytes ⟨a, s⟩ ++ rest = leBytes 8 a ++ (varBytes s ++ rest) := by simp [outBytes]
    have e1 : (leBytes 8 a ++ (varBytes s ++ rest)).drop 8 = varBytes s ++ rest := by
      rw [List.drop_append_of_le_length (by simp), List.drop_of_length_le (by simp)]; rfl
    have e2 : (leBytes 8 a ++ (varBytes s ++ rest)).take 8 = leBytes 8 a := by
      rw [List.take_append_of_le_length (by simp), List.take_of_length_le (by simp)]
    rw [e0]
    unfold readOut
    rw [if_neg (by simp), e1, readVar_varBytes s _ h2]
    simp only [e2, leValue_leBytes]
    congr 2; omega
  sound := by
    intro p x rest h
    unfold readOut at h
    split_ifs at h with h1
    cases hv : readVar (p.drop 8) with
    | more => simp [hv] at h
    | bad => simp [hv] at h
    | ok d r =>
      simp only [hv, Outcome.ok.injEq] at h
      obtain ⟨rfl, rfl⟩ := h
      obtain ⟨e, hd⟩ := readVar_sound _ _ _ hv
      have l1 := leValue_lt (p.take 8)
      refine ⟨?_, ?_, hd⟩
      · unfold outBytes
        simp only
        rw [leBytes_take _ 8 (by omega)]
        calc p = p.take 8 ++ p.drop 8 := (List.take_append_drop _ _).symm
          _ = _ := by rw [e]; simp
      · have : (p.take 8).length = 8 := by simp; omega
        rw [this] at l1; simpa using l1

theorem codecMany {β : Type} {f : Bytes → Outcome β} {ser : β → Bytes} {P : β → Prop} (c : Codec f ser P) (n : Nat) :
    Codec (readMany f n) (fun xs => xs.flatMap ser) (fun xs => xs.length = n ∧ ∀ x ∈ xs, P x) := by
  induction n with
  | zero =>
    refine ⟨?_, ?_⟩
    · rintro xs rest ⟨h, -⟩
      have : xs = [] := List.length_eq_zero_iff.mp h
      subst this; simp [readMany]
    · intro p xs rest h
      simp only [readMany, Outcome.ok.injEq] at h
      obtain ⟨rfl, rfl⟩ := h
      simp
  | succ n ih =>
    refine ⟨?_, ?_⟩
    · rintro xs rest ⟨h, hp⟩
      cases xs with
      | nil => simp at h
      | cons x xs =>
        simp only [List.flatMap_cons, List.append_assoc, readMany]
        rw [c.complete x _ (hp x (by simp))]
        simp only
        rw [ih.complete xs rest ⟨by simpa using h, fun y hy => hp y (by simp [hy])⟩]
    · intro p xs rest h
      simp only [readMany] at h
      cases h1 : f p with
      | more => simp [h1] at h
      | bad => simp [h1] at h
      | ok x r =>
        simp only [h1] at h
        cases h2 : readMany f n r with
        | more => simp [h2] at h
        | bad => simp [h2] at h
        | ok ys r' =>
          simp only [h2, Outcome.ok.injEq] at h
          obtain ⟨rfl, rfl⟩ := h
          obtain ⟨e1, p1⟩ := c.sound _ _ _ h1
          obtain ⟨e2, l2, p2⟩ := ih.sound _ _ _ h2
          refine ⟨by rw [e1, e2]; simp, by simp [l2], ?_⟩
          intro y hy
          rcases List.mem_cons.mp hy with rfl | hy
          · exact p1
          · exact p2 y hy

theorem codecWitness : Codec readWitness witnessBytes (fun items => items.length < 253 ∧ ∀ d ∈ items, d.length < 2 ^ 31) where
  complete := by
    rintro items rest ⟨h, hp⟩
    have hb : (UInt8.ofNat items.length).toNat = items.length := by simp; omega
    have hlt : UInt8.ofNat items.length < 0xfd := by rw [UInt8.lt_iff_toNat_lt, hb]; exact h
    simp only [witnessBytes, compactSize_small h, List.cons_append, List.nil_append, readWitness, if_pos hlt, hb]
    exact (codecMany codecVar items.length).complete items rest ⟨rfl, hp⟩
  sound := by
    intro p xs rest h
    cases p with
    | nil => simp [readWitness] at h
    | cons b r =>
      simp only [readWitness] at h
      split_ifs at h with h1
      obtain ⟨e, l, hp⟩ := (codecMany codecVar _).sound _ _ _ h
      have hb : b.toNat < 253 := by rw [UInt8.lt_iff_toNat_lt] at h1; exact h1
      refine ⟨?_, by omega, hp⟩
      simp only [witnessBytes]
      rw [compactSize_small (by omega), l]
      simp [e]

end UB.Spec
