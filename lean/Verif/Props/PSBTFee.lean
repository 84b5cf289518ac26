import Verif.Props.PSBTParse

/-
C55 fee.
-/

namespace UB
open Spec

/-- The fee of a transaction whose inputs spend the given amounts (`none`: not known). -/
def Spec.feeOf (ins : List (Option Nat)) (outs : List Nat) : Nat :=
  if (∀ a ∈ ins, a ≠ none) ∧ outs.sum ≤ (ins.map (·.getD 0)).sum then (ins.map (·.getD 0)).sum - outs.sum else 0

theorem foldl_amounts (os : List TxOut) : ∀ acc : UInt64, (os.foldl (fun acc o => acc + o.amount) acc).toNat = (acc.toNat + (os.map (·.amount.toNat)).sum) % 2 ^ 64 := by
  induction os with
  | nil => intro acc; simp [Nat.mod_eq_of_lt acc.toNat_lt]
  | cons o os ih =>
    intro acc
    rw [List.foldl_cons, ih, UInt64.toNat_add, List.map_cons, List.sum_cons]
    omega

theorem PSBT.sumInputs_spec : ∀ (is : List TxIn) (ms : List InMeta) (acc : UInt64), is.length = ms.length →
    sumInputs is ms acc = if ∃ m ∈ ms, m.txOut.amount = 0 then .ok none else .ok (some (UInt64.ofNat (acc.toNat + (ms.map (·.txOut.amount.toNat)).sum)))
  | [], [], acc, _ => by simp [sumInputs]
  | [], _ :: _, _, h => by simp at h
  | _ :: _, [], _, h => by simp at h
  | i :: is, m :: ms, acc, h => by
    unfold sumInputs
    by_cases h0 : m.txOut.amount = 0
    · rw [if_pos h0, if_pos ⟨m, List.mem_cons_self .., h0⟩]
    · rw [if_neg h0, sumInputs_spec is ms _ (by simpa using h)]
      have : (∃ m' ∈ m :: ms, m'.txOut.amount = 0) ↔ ∃ m' ∈ ms, m'.txOut.amount = 0 := by simp [h0]
      rw [if_congr this rfl rfl]
      split
      · rfl
      · congr 2
        apply UInt64.toNat_inj.mp
        rw [UInt64.toNat_ofNat', UInt64.toNat_ofNat', UInt64.toNat_add, List.map_cons, List.sum_cons]
        omega

/-- C55, exactly: sums are taken modulo 2^64, and an amount of 0 counts as unknown. -/
theorem C55_exact (p : PSBT) (h : p.ins.length = p.tx.txIns.length) :
    p.fee = .ok (if (∃ m ∈ p.ins, m.txOut.amount = 0) ∨ (p.ins.map (·.txOut.amount.toNat)).sum % 2 ^ 64 < (p.tx.txOuts.map (·.amount.toNat)).sum % 2 ^ 64 then 0
      else UInt64.ofNat ((p.ins.map (·.txOut.amount.toNat)).sum % 2 ^ 64 - (p.tx.txOuts.map (·.amount.toNat)).sum % 2 ^ 64)) := by
  unfold PSBT.fee
  rw [PSBT.sumInputs_spec _ _ _ h.symm]
  by_cases h0 : ∃ m ∈ p.ins, m.txOut.amount = 0
  · rw [if_pos h0, C.bind_ok, if_pos (Or.inl h0)]; rfl
  · rw [if_neg h0, C.bind_ok]
    dsimp only
    rw [C.pure_eq]
    have hb := foldl_amounts p.tx.txOuts 0
    generalize p.tx.txOuts.foldl (fun acc o => acc + o.amount) 0 = b at hb ⊢
    generalize (p.ins.map (·.txOut.amount.toNat)).sum = A at *
    generalize (p.tx.txOuts.map (·.amount.toNat)).sum = B at *
    simp only [UInt64.toNat_zero, Nat.zero_add] at hb ⊢
    congr 1
    have e : (b > UInt64.ofNat A) ↔ A % 2 ^ 64 < B % 2 ^ 64 := by
      rw [gt_iff_lt, UInt64.lt_iff_toNat_lt, UInt64.toNat_ofNat', hb]
    by_cases hlt : A % 2 ^ 64 < B % 2 ^ 64
    · rw [if_pos (e.mpr hlt), if_pos (Or.inr hlt)]
    · rw [if_neg (fun h => hlt (e.mp h)), if_neg (by rintro (h | h); exact h0 h; exact hlt h)]
      apply UInt64.toNat_inj.mp
      rw [UInt64.toNat_sub_of_le _ _ (by rw [UInt64.le_iff_toNat_le, UInt64.toNat_ofNat', hb]; omega), UInt64.toNat_ofNat', UInt64.toNat_ofNat', hb]
      omega

/-- The amounts recorded for the inputs: an input without a recorded output has the amount 0. -/
def PSBT.Amounts (p : PSBT) (ins : List (Option Nat)) (outs : List Nat) : Prop :=
  List.Forall₂ (fun (m : InMeta) a => m.txOut.amount.toNat = a.getD 0) p.ins ins ∧ List.Forall₂ (fun (o : TxOut) a => o.amount.toNat = a) p.tx.txOuts outs

theorem map_eq_of_forall₂ {α β γ : Type} {f : α → γ} {g : β → γ} {xs : List α} {ys : List β} (h : List.Forall₂ (fun a b => f a = g b) xs ys) : xs.map f = ys.map g := by
  induction h with
  | nil => rfl
  | cons h1 _ ih => rw [List.map_cons, List.map_cons, h1, ih]

/-- C55 for totals below 2^64 and inputs whose known amounts are not 0.  Missing: totals of 2^64 and more, and inputs that spend an output of
amount 0, where it is false (`C55_wraps`, `C55_zero_amount`). -/
theorem C55_fee_partial (p : PSBT) (ins : List (Option Nat)) (outs : List Nat) (h : p.ins.length = p.tx.txIns.length) (ha : p.Amounts ins outs)
    (h1 : (ins.map (·.getD 0)).sum < 2 ^ 64) (h2 : outs.sum < 2 ^ 64) (h0 : some 0 ∉ ins) :
    p.fee = .ok (UInt64.ofNat (feeOf ins outs)) := by
  rw [C55_exact p h]
  have e1 : p.ins.map (·.txOut.amount.toNat) = ins.map (·.getD 0) := map_eq_of_forall₂ ha.1
  have e2 : p.tx.txOuts.map (·.amount.toNat) = outs := by rw [map_eq_of_forall₂ (g := id) ha.2, List.map_id]
  rw [e1, e2, Nat.mod_eq_of_lt h1, Nat.mod_eq_of_lt h2]
  have e3 : (∃ m ∈ p.ins, m.txOut.amount = 0) ↔ none ∈ ins := by
    constructor
    · rintro ⟨m, hm, hz⟩
      obtain ⟨i, hi, rfl⟩ := List.getElem_of_mem hm
      have h3 := List.forall₂_iff_get.mp ha.1
      have h4 := h3.2 i hi (by rw [← h3.1]; exact hi)
      simp only [List.get_eq_getElem, hz] at h4
      have hmem := List.getElem_mem (l := ins) (n := i) (by rw [← h3.1]; exact hi)
      cases hv : ins[i]'(by rw [← h3.1]; exact hi) with
      | none => rw [hv] at hmem; exact hmem
      | some a =>
        rw [hv] at h4 hmem
        simp at h4
        rw [← h4] at hmem
        exact absurd hmem h0
    · intro hm
      obtain ⟨i, hi, he⟩ := List.getElem_of_mem hm
      have h3 := List.forall₂_iff_get.mp ha.1
      have h4 := h3.2 i (by rw [h3.1]; exact hi) hi
      simp only [List.get_eq_getElem, he, Option.getD_none] at h4
      exact ⟨_, List.getElem_mem (by rw [h3.1]; exact hi), UInt64.toNat_inj.mp h4⟩
  congr 1
  unfold feeOf
  by_cases hn : none ∈ ins
  · rw [if_pos (Or.inl (e3.mpr hn)), if_neg (by rintro ⟨h, -⟩; exact h none hn rfl)]; rfl
  · by_cases hl : (ins.map (·.getD 0)).sum < outs.sum
    · rw [if_pos (Or.inr hl), if_neg (by rintro ⟨-, h⟩; omega)]; rfl
    · rw [if_neg (by rintro (h | h); exact hn (e3.mp h); exact hl h), if_pos ⟨fun a h h' => hn (h' ▸ h), by omega⟩]

/-- C55 end to end: the fee after parsing a document in which every input tells the output it spends. -/
theorem C55_parsed_partial (junk : Nat → Bytes) {p : PSBT} (hp : p.Clean) (d : PsbtDoc) (hd : d.Ok) (rest : Bytes) (spent : List Out)
    (hs : List.Forall₂ (fun (x : In × List InField) o => lastOf (·.spent x.1.prevIndex) x.2 = some o) (d.tx.ins.zip d.ins) spent) (h0 : ∀ o ∈ spent, o.amount ≠ 0)
    (h1 : (spent.map (·.amount)).sum < 2 ^ 64) (h2 : (d.tx.outs.map (·.amount)).sum < 2 ^ 64) :
    (PSBT.fromStream junk p (.of (d.bytes ++ rest))).1.fee = .ok (UInt64.ofNat ((spent.map (·.amount)).sum - (d.tx.outs.map (·.amount)).sum)) := by
  obtain ⟨-, hh, -⟩ := C57_parse_partial junk hp d hd rest
  generalize (PSBT.fromStream junk p (.of (d.bytes ++ rest))).1 = q at hh ⊢
  have l1 := hh.ins.length_eq
  have l2 := hh.tx.ins.length_eq
  have l3 := hs.length_eq
  have l4 := hd.ins.length_eq
  rw [List.length_zip] at l1 l3
  have hA : q.Amounts (spent.map fun o => some o.amount) (d.tx.outs.map (·.amount)) := by
    constructor
    · rw [List.forall₂_iff_get]
      refine ⟨by rw [List.length_map]; omega, fun i a b => ?_⟩
      rw [List.length_map] at b
      have e1 := (List.forall₂_iff_get.mp hh.ins).2 i (by rw [List.length_zip]; omega) a
      have e2 := (List.forall₂_iff_get.mp hs).2 i (by rw [List.length_zip]; omega) b
      simp only [List.get_eq_getElem, List.getElem_map] at e1 e2 ⊢
      have e3 := e1.spent
      rw [e2] at e3
      exact e3.amount
    · rw [List.forall₂_map_right_iff]
      exact hh.tx.outs.imp fun _ _ h => h.amount
  have e0 : (List.map (fun o : Out => some o.amount) spent).map (·.getD 0) = spent.map (·.amount) := by rw [List.map_map]; rfl
  rw [C55_fee_partial q _ _ (by omega) hA (by rw [e0]; exact h1) h2 (by
    intro hm
    obtain ⟨o, ho, he⟩ := List.mem_map.mp hm
    exact h0 o ho (by simpa using he))]
  congr 2
  unfold feeOf
  rw [e0]
  by_cases hl : (d.tx.outs.map (·.amount)).sum ≤ (spent.map (·.amount)).sum
  · rw [if_pos ⟨by intro a ha; obtain ⟨o, -, rfl⟩ := List.mem_map.mp ha; simp, hl⟩]
  · rw [if_neg (fun h => hl h.2)]; omega

/-- C55 is false when a total reaches 2^64: two outputs of 2^63 count for nothing, and the fee is the whole input. -/
theorem C55_wraps (a : UInt64) (ha : a ≠ 0) :
    ({ tx := { txIns := [{}], txOuts := [{ amount := 0x8000000000000000 }, { amount := 0x8000000000000000 }] }, ins := [{ txOut := { amount := a } }], outs := [{}, {}] } : PSBT).fee = .ok a ∧
      feeOf [some a.toNat] [2 ^ 63, 2 ^ 63] = 0 := by
  constructor
  · rw [C55_exact _ rfl]
    simp [ha]
  · unfold feeOf
    rw [if_neg]
    have := a.toNat_lt
    simp
    omega

/-- C55 is false for an input that is known to spend an output of amount 0: the fee is reported as 0 whatever the other inputs give. -/
theorem C55_zero_amount (p : PSBT) (h : p.ins.length = p.tx.txIns.length) (m : InMeta) (hm : m ∈ p.ins) (h0 : m.txOut.amount = 0) : p.fee = .ok 0 := by
  rw [C55_exact p h, if_pos (Or.inl ⟨m, hm, h0⟩)]

example (a b : UInt64) (ha : a ≠ 0) (hlt : b.toNat ≤ a.toNat) :
    ({ tx := { txIns := [{}], txOuts := [{ amount := b }] }, ins := [{ txOut := { amount := a } }], outs := [{}] } : PSBT).fee = .ok (UInt64.ofNat (a.toNat - b.toNat)) := by
  have h : feeOf [some a.toNat] [b.toNat] = a.toNat - b.toNat := by simp [feeOf, hlt]
  rw [← h]
  exact C55_fee_partial _ _ _ rfl ⟨.cons rfl .nil, .cons rfl .nil⟩ (by simpa using a.toNat_lt) (by simpa using b.toNat_lt)
    (by simp; intro h; exact ha (UInt64.toNat_inj.mp h.symm))

example : feeOf [some 70, none] [30] = 0 ∧ feeOf [some 70, some 5] [30] = 45 ∧ feeOf [some 70] [71] = 0 := by decide

end UB
